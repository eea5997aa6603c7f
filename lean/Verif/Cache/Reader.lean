import Verif.Cache.Model
import Verif.Cache.Load

/-
Reading and writing files in pieces: `_read_open_regular` and `_write_all` (tn/cache.py:217-259).

The file may change between any two operations: `file k` is its content when the `k`-th operation
takes place. A read returns at least one byte unless the position is at or after the end, and otherwise
any number of them.
-/

namespace Verif.Cache.Reader

/-- What `os.fstat` says, as far as it is used. -/
structure Stat where
  regular : Bool
  reparse : Bool
  ident : Nat × Nat
  size : Nat

structure File where
  /-- `os.fstat` before and after. -/
  opened : Stat
  after : Stat
  /-- The content at the time of the `k`-th read. -/
  content : Nat → Bytes
  /-- The `k`-th read returns at most one more than this. -/
  chunk : Nat → Nat

/-- A read of at most `n` bytes at `offset`. -/
def File.read (f : File) (k offset n : Nat) : Bytes :=
  ((f.content k).drop offset).take (min n (f.chunk k + 1))

/-- `view[offset:…] = data` in a buffer of fixed length. -/
def fill (buffer : Bytes) (offset : Nat) (data : Bytes) : Bytes :=
  buffer.take offset ++ data ++ buffer.drop (offset + data.length)

/-- `while offset < size`, cache.py:246-250: the buffer and the number of reads. The fuel is never used
up because each read returns a byte. -/
def fillLoop (f : File) (size : Nat) : Nat → Nat → Nat → Bytes → Except Err (Bytes × Nat)
  | 0, k, _, buffer => .ok (buffer, k)
  | fuel + 1, k, offset, buffer =>
    if offset < size then
      let data := f.read k offset (size - offset)
      if data = [] then .error .integrity
      else fillLoop f size fuel (k + 1) (offset + data.length) (fill buffer offset data)
    else .ok (buffer, k)

/-- `_read_open_regular`, cache.py:227-259. -/
def readOpen (f : File) (expected : Option Int) (max : Option Nat) (stat : Option (Nat × Nat)) :
    Except Err Bytes :=
  if !f.opened.regular || f.opened.reparse then .error .path
  else if stat.any (· ≠ f.opened.ident) then .error .path
  else if maxsize < f.opened.size then .error .integrity
  else if expected.any (fun s => s ≠ (f.opened.size : Int)) then .error .integrity
  else if max.any (fun m => m < f.opened.size) then .error .integrity
  else match fillLoop f f.opened.size (f.opened.size + 1) 0 0 (List.replicate f.opened.size 0) with
    | .error e => .error e
    | .ok (buffer, k) =>
      if f.read k f.opened.size 1 ≠ [] then .error .integrity
      else if f.after.ident ≠ f.opened.ident ∨ f.after.size ≠ f.opened.size then .error .integrity
      else .ok buffer

theorem read_length (f : File) (k o n : Nat) : (f.read k o n).length ≤ n := by
  simp only [File.read, List.length_take, List.length_drop]
  omega

theorem length_fill {b d : Bytes} {o : Nat} (h : o + d.length ≤ b.length) :
    (fill b o d).length = b.length := by
  simp only [fill, List.length_append, List.length_take, List.length_drop]
  omega

theorem getElem?_fill {b d : Bytes} {o : Nat} (h : o + d.length ≤ b.length) (i : Nat) :
    (fill b o d)[i]? = if i < o then b[i]? else if i < o + d.length then d[i - o]? else b[i]? := by
  unfold fill
  have h1 : (b.take o).length = o := by simp; omega
  by_cases h2 : i < o
  · rw [if_pos h2, List.append_assoc, List.getElem?_append_left (by omega),
      List.getElem?_take_of_lt h2]
  · rw [if_neg h2]
    by_cases h3 : i < o + d.length
    · rw [if_pos h3, List.append_assoc, List.getElem?_append_right (by omega), h1,
        List.getElem?_append_left (by omega)]
    · rw [if_neg h3, List.getElem?_append_right (by simp; omega), List.getElem?_drop]
      congr 1
      simp only [List.length_append, h1]
      omega

theorem getElem?_read {f : File} {k o n j : Nat} (h : j < (f.read k o n).length) :
    (f.read k o n)[j]? = (f.content k)[o + j]? := by
  unfold File.read at h ⊢
  rw [List.getElem?_take_of_lt (by simp only [List.length_take] at h; omega), List.getElem?_drop]

/-- What the loop ends with. -/
theorem fillLoop_spec (f : File) (size : Nat) : ∀ fuel k offset buffer, buffer.length = size →
    offset ≤ size → size - offset < fuel →
    (∀ i, i < offset → ∃ k', k' < k ∧ buffer[i]? = (f.content k')[i]?) →
    ∀ x, fillLoop f size fuel k offset buffer = x →
      (∀ e, x = .error e → e = .integrity ∧ ∃ k', k ≤ k' ∧ (f.content k').length < size) ∧
      ∀ b k', x = .ok (b, k') → b.length = size ∧ k ≤ k' ∧
        ∀ i, i < size → ∃ j, j < k' ∧ b[i]? = (f.content j)[i]?
  | 0, _, _, _, _, _, h, _, _, _ => by omega
  | fuel + 1, k, offset, buffer, hl, ho, hf, hb, x, hx => by
    rw [fillLoop] at hx
    split at hx
    · rename_i hlt
      simp only at hx
      split at hx
      · rename_i hd
        subst hx
        refine ⟨fun e he => ?_, fun b k' he => (by cases he)⟩
        cases he
        refine ⟨rfl, k, Nat.le_refl _, ?_⟩
        have : (f.read k offset (size - offset)).length = 0 := by rw [hd]; rfl
        simp only [File.read, List.length_take, List.length_drop] at this
        omega
      · rename_i hd
        have h1 : 1 ≤ (f.read k offset (size - offset)).length := List.length_pos_iff.2 hd
        have h2 := read_length f k offset (size - offset)
        have h3 : offset + (f.read k offset (size - offset)).length ≤ buffer.length := by omega
        have := fillLoop_spec f size fuel (k + 1) (offset + (f.read k offset (size - offset)).length)
          (fill buffer offset (f.read k offset (size - offset))) (by rw [length_fill h3, hl])
          (by omega) (by omega) (by
            intro i hi
            rw [getElem?_fill h3]
            split
            · rename_i h4
              obtain ⟨k', h5, h6⟩ := hb i h4
              exact ⟨k', by omega, h6⟩
            · rename_i h4
              refine ⟨k, by omega, ?_⟩
              rw [getElem?_read (by omega)]
              congr 1
              omega) x hx
        refine ⟨fun e he => ?_, fun b k' he => ?_⟩
        · obtain ⟨h4, k', h5, h6⟩ := this.1 e he
          exact ⟨h4, k', by omega, h6⟩
        · obtain ⟨h4, h5, h6⟩ := this.2 b k' he
          exact ⟨h4, by omega, h6⟩
    · rename_i hlt
      subst hx
      refine ⟨fun e he => (by cases he), fun b k' he => ?_⟩
      cases he
      exact ⟨hl, Nat.le_refl _, fun i hi => hb i (by omega)⟩

/-! ### C44: reading returns exactly the file or fails -/

/-- C44: a result has the size that the file and, where given, the manifest declare and is within the
limit; each of its bytes was read from the file at its place, so nothing is padded; the file did not
continue after it. -/
theorem read_sound {f : File} {expected : Option Int} {max : Option Nat} {stat : Option (Nat × Nat)}
    {b : Bytes} (h : readOpen f expected max stat = .ok b) :
    f.opened.regular = true ∧ f.opened.reparse = false ∧ b.length = f.opened.size ∧
    (∀ s, expected = some s → s = b.length) ∧ (∀ m, max = some m → b.length ≤ m) ∧
    (∀ i, stat = some i → i = f.opened.ident) ∧
    (∀ i, i < b.length → ∃ k, b[i]? = (f.content k)[i]?) ∧
    (∃ k, (f.content k).length ≤ b.length) ∧
    f.after.size = b.length ∧ f.after.ident = f.opened.ident := by
  unfold readOpen at h
  split at h
  · cases h
  · rename_i h1
    split at h
    · cases h
    · rename_i h2
      split at h
      · cases h
      · split at h
        · cases h
        · rename_i h3
          split at h
          · cases h
          · rename_i h4
            split at h
            · cases h
            · rename_i b' k hk
              split at h
              · cases h
              · rename_i h5
                split at h
                · cases h
                · rename_i h6
                  cases h
                  obtain ⟨-, h7⟩ := fillLoop_spec f f.opened.size _ 0 0 _ (by simp) (by omega)
                    (by omega) (by omega) _ hk
                  obtain ⟨h8, -, h9⟩ := h7 b k rfl
                  simp only [Bool.or_eq_true, Bool.not_eq_true', not_or, Bool.not_eq_false,
                    Bool.not_eq_true] at h1
                  push Not at h5 h6
                  refine ⟨h1.1, h1.2, h8, ?_, ?_, ?_, ?_, ⟨k, ?_⟩, ?_, h6.1⟩
                  · rintro s rfl
                    rw [h8]
                    simpa using h3
                  · rintro m rfl
                    rw [h8]
                    simpa using h4
                  · rintro i rfl
                    simpa using h2
                  · intro i hi
                    obtain ⟨j, -, hj⟩ := h9 i (by omega)
                    exact ⟨j, hj⟩
                  · have : (f.read k f.opened.size 1).length = 0 := by rw [h5]; rfl
                    simp only [File.read, List.length_take, List.length_drop] at this
                    omega
                  · rw [h8, h6.2]

/-- A regular file that does not change while it is read. -/
structure Still (f : File) (b : Bytes) : Prop where
  regular : f.opened.regular = true
  reparse : f.opened.reparse = false
  size : f.opened.size = b.length
  after : f.after = f.opened
  content : ∀ k, f.content k = b

/-- C44: however the reads are cut, an unchanged file is returned as it is, or refused exactly when its
size is not the expected one or above a limit. This is what `readOpenRegular` of the cache model says. -/
theorem read_still {f : File} {b : Bytes} (hf : Still f b) (hs : b.length ≤ maxsize)
    (expected : Option Int) (max : Option Nat) :
    readOpen f expected max none = readOpenRegular (.reg b) expected max := by
  have key : readOpen f none none none = .ok b := by
    unfold readOpen
    rw [if_neg (by simp [hf.regular, hf.reparse]), if_neg (by simp), if_neg (by rw [hf.size]; omega),
      if_neg (by simp), if_neg (by simp)]
    cases hk : fillLoop f f.opened.size (f.opened.size + 1) 0 0 (List.replicate f.opened.size 0) with
    | error e =>
      obtain ⟨h7, -⟩ := fillLoop_spec f f.opened.size _ 0 0 _ (by simp) (by omega) (by omega)
        (by omega) _ hk
      obtain ⟨-, k, -, h8⟩ := h7 e rfl
      rw [hf.content, hf.size] at h8
      omega
    | ok p =>
      obtain ⟨b', k⟩ := p
      obtain ⟨-, h7⟩ := fillLoop_spec f f.opened.size _ 0 0 _ (by simp) (by omega) (by omega)
        (by omega) _ hk
      obtain ⟨h8, -, h9⟩ := h7 b' k rfl
      have h10 : f.read k f.opened.size 1 = [] := by
        unfold File.read
        rw [hf.content, hf.size]
        simp
      simp only [h10, ne_eq, not_true_eq_false, if_false, hf.after, or_self]
      congr 1
      refine List.ext_getElem? fun i => ?_
      by_cases hi : i < f.opened.size
      · obtain ⟨j, -, hj⟩ := h9 i hi
        rw [hj, hf.content]
      · rw [List.getElem?_eq_none (by omega), List.getElem?_eq_none (by rw [← hf.size]; omega)]
  unfold readOpen at key ⊢
  rw [if_neg (by simp [hf.regular, hf.reparse]), if_neg (by simp),
    if_neg (by rw [hf.size]; omega)] at key ⊢
  rw [if_neg (by simp), if_neg (by simp)] at key
  rw [key]
  unfold readOpenRegular
  simp only [hf.size]

/-- C44: a file that is shorter than its declared size is refused, as is one that continues after it
whenever it is looked at. -/
theorem read_changed {f : File} {expected : Option Int} {max : Option Nat}
    {stat : Option (Nat × Nat)} (hr : f.opened.regular = true) (hp : f.opened.reparse = false)
    (hi : ∀ i, stat = some i → i = f.opened.ident)
    (h : (∀ k, (f.content k).length < f.opened.size) ∨
      (∀ k, f.opened.size < (f.content k).length) ∨ f.after.size ≠ f.opened.size) :
    readOpen f expected max stat = .error .integrity := by
  cases hx : readOpen f expected max stat with
  | ok b =>
    exfalso
    obtain ⟨-, -, h1, -, -, -, h2, ⟨k, h3⟩, h4, -⟩ := read_sound hx
    rcases h with h | h | h
    · have h5 := h 0
      have : f.opened.size - 1 < b.length := by omega
      obtain ⟨k, hk⟩ := h2 _ this
      rw [List.getElem?_eq_getElem this] at hk
      have := List.getElem?_eq_some_iff.1 hk.symm
      obtain ⟨h6, -⟩ := this
      have := h k
      omega
    · have := h k
      omega
    · omega
  | error e =>
    congr 1
    unfold readOpen at hx
    rw [if_neg (by simp [hr, hp]), if_neg (by
      cases stat with
      | none => simp
      | some i => simp [hi i rfl])] at hx
    split at hx
    · cases hx; rfl
    · split at hx
      · cases hx; rfl
      · split at hx
        · cases hx; rfl
        · split at hx
          · rename_i e' hk
            cases hx
            obtain ⟨h7, -⟩ := fillLoop_spec f f.opened.size _ 0 0 _ (by simp) (by omega) (by omega)
              (by omega) _ hk
            exact (h7 e rfl).1
          · split at hx
            · cases hx; rfl
            · split at hx
              · cases hx; rfl
              · cases hx

/-! Examples -/

/-- A file of five bytes in pieces of one and two bytes. -/
def sample (c : Nat → Bytes) (after : Nat) : File where
  opened := ⟨true, false, (1, 2), 5⟩
  after := ⟨true, false, (1, 2), after⟩
  content := c
  chunk k := k % 2

example : (readOpen (sample (fun _ => [1, 2, 3, 4, 5]) 5) (some 5) (some 9) none).toOption =
    some [1, 2, 3, 4, 5] := by decide +kernel

example : Still (sample (fun _ => [1, 2, 3, 4, 5]) 5) [1, 2, 3, 4, 5] :=
  ⟨rfl, rfl, rfl, rfl, fun _ => rfl⟩

/-- It is truncated while it is read. -/
example : (readOpen (sample (fun k => if k < 2 then [1, 2, 3, 4, 5] else [1, 2, 3]) 5) none none
    none).toOption = none := by decide +kernel

/-- It has grown. -/
example : (readOpen (sample (fun _ => [1, 2, 3, 4, 5, 6]) 5) none none none).toOption = none := by
  decide +kernel

/-! ### `_write_all` -/

/-- `_write_all`, cache.py:217-224: what has been appended to the file, and whether it succeeded;
`written k` is the result of the `k`-th `os.write`, which wrote as many bytes of what it was given. -/
def writeAll (written : Nat → Int) : Nat → Nat → Bytes → Bytes × Except Err Unit
  | 0, _, _ => ([], .ok ())
  | fuel + 1, k, data =>
    if data = [] then ([], .ok ())
    else if written k ≤ 0 then ([], .error .os)
    else
      let r := writeAll written fuel (k + 1) (data.drop (written k).toNat)
      (data.take (written k).toNat ++ r.1, r.2)

theorem writeAll_spec (written : Nat → Int) : ∀ fuel k data, data.length < fuel →
    (writeAll written fuel k data).1 <+: data ∧
    ((writeAll written fuel k data).2 = .ok () → (writeAll written fuel k data).1 = data) ∧
    ((∀ k, 0 < written k) → (writeAll written fuel k data).2 = .ok ())
  | 0, _, _, h => by omega
  | fuel + 1, k, data, h => by
    rw [writeAll]
    split
    · rename_i h1
      subst h1
      exact ⟨List.prefix_refl _, fun _ => rfl, fun _ => rfl⟩
    · rename_i h1
      split
      · rename_i h2
        exact ⟨List.nil_prefix, fun h3 => (by cases h3), fun h3 => (by have := h3 k; omega)⟩
      · rename_i h2
        have hpos : 1 ≤ data.length := List.length_pos_iff.2 h1
        obtain ⟨h3, h4, h5⟩ := writeAll_spec written fuel (k + 1) (data.drop (written k).toNat) (by
          rw [List.length_drop]
          omega)
        refine ⟨?_, fun h6 => ?_, h5⟩
        · have := (List.prefix_append_right_inj (data.take (written k).toNat)).2 h3
          rwa [List.take_append_drop] at this
        · simp only at h6 ⊢
          rw [h4 h6, List.take_append_drop]

/-- C44: however the writes are cut, everything is written in order or the error leaves a prefix. -/
theorem write_all (written : Nat → Int) (data : Bytes) :
    (writeAll written (data.length + 1) 0 data).1 <+: data ∧
    ((writeAll written (data.length + 1) 0 data).2 = .ok () →
      (writeAll written (data.length + 1) 0 data).1 = data) ∧
    ((∀ k, 0 < written k) → (writeAll written (data.length + 1) 0 data).2 = .ok ()) :=
  writeAll_spec written _ _ _ (by omega)

example : (writeAll (fun k => k + 1) 6 0 [1, 2, 3, 4, 5]).1 = [1, 2, 3, 4, 5] := by decide

end Verif.Cache.Reader
