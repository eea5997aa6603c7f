import Verif.Cache.Trace
import Verif.Cache.Warm
import Verif.Cache.Demo

/-
The properties C30-C35, C38-C40 and C42 of the graph cache.
-/

namespace Verif.Cache

variable {W : World} {F : Faults}

/-! ### C30: a loaded bundle is complete, matching and checksummed -/

/-- C30: whatever is on disk and whatever fails, graphs are only loaded from a directory with
exactly the three files, a manifest of this key and the recorded sizes and checksums; loading changes
nothing. -/
theorem load_sound {fs fs' : FS W.G} {tr : Hist W.G} {g : W.G × W.G}
    (h : Run W.key F (loadPath W W.final) fs tr (.ok (some g)) fs') :
    fs' = fs ∧ ∃ i es, fs.entry W.key.digest = some i ∧ fs.node i = .dir es ∧ NamesOk es ∧
      Holds W es g := by
  obtain ⟨h', -, h1, h2⟩ := Safe.run (K := fun _ => True) (fun _ => trivial)
    (loadPath_held (Gd := Any W) (F := F) (n := W.final) (fs := fs) fun _ => trivial) h
  exact ⟨h1, h2 g rfl⟩

/-- A run that loads something. -/
example : ∃ tr x fs', Run Demo.world.key Demo.wild (loadPath Demo.world Demo.world.final) Demo.full
    tr x fs' ∧ (match x with | .ok (some g) => g == (true, false) | _ => false) = true :=
  Demo.ends_run (c := Demo.chance (true, true)) rfl (Demo.allowed _ _) (by decide)
    (by decide +kernel)

/-- C30, the converse: when reading works, such a directory is loaded. -/
theorem load_complete (hw : ReadsWork F) {fs fs' : FS W.G} {tr : Hist W.G}
    {x : Except Err (Option (W.G × W.G))} {g : W.G × W.G} {i : Ino} {es : List (Name × Ent)}
    (hi : fs.entry W.key.digest = some i) (hes : fs.node i = .dir es) (hn : NamesOk es)
    (hg : Holds W es g) (h : Run W.key F (loadPath W W.final) fs tr x fs') :
    x = .ok (some g) := by
  obtain ⟨h', -, -, h2⟩ := Safe.run (K := fun _ => True) (fun _ => trivial)
    (loadPath_reads (Gd := Any W) (n := W.final) hw (fun _ => trivial) hi hes hn hg) h
  exact h2

/-- A directory determines the graphs it holds. -/
theorem holds_unique {es : List (Name × Ent)} {g g' : W.G × W.G} (h : Holds W es g)
    (h' : Holds W es g') : g = g' :=
  h.unique h'

example : ReadsWork Demo.calm ∧ NamesOk (bundleOf Demo.world true false) ∧
    Holds Demo.world (bundleOf Demo.world true false) (true, false) :=
  ⟨Demo.reads, bundleOf_names (W := Demo.world) true false, Demo.holds true false⟩

/-! ### The system: any number of users of one key -/

/-- What a process does with the cache: `Processor.build_fst`, or `CacheBundle.load`
(cache.py:627-628). -/
inductive Client where
  | build (overwrite : Bool)
  | load

def Client.prog (W : World) : Client → Prog W.G (Option (W.G × W.G))
  | .build ow => (buildCached W ow).bind fun g => .ret (some g)
  | .load => loadPath W W.final

/-- The start of the system. -/
def start (W : World) (fs : FS W.G) (clients : Nat → Client) :
    Sys W.G (Option (W.G × W.G)) :=
  Sys.start fs fun i => (clients i).prog W

/-- A parent directory before the first operation. -/
structure Fresh (fs : FS W.G) : Prop where
  wf : Wf fs
  built : fs.built = []
  moves : fs.moves = []

theorem Demo.fresh (l : List (Name × List (Name × Ent))) : Fresh (W := Demo.world) (Demo.disk l) :=
  ⟨Demo.wf l, rfl, rfl⟩

/-- A content the key's final or previous names have. -/
def Content (W : World) (fs : FS W.G) (es : List (Name × Ent)) : Prop :=
  ∃ n i, Readable W n ∧ fs.entry n = some i ∧ fs.node i = .dir es

theorem Fresh.inv {fs : FS W.G} (h : Fresh fs) : Inv W (Content W fs) fs :=
  ⟨h.wf, fun n i es h1 h2 h3 => ⟨es, .inl ⟨n, i, h1, h2, h3⟩, Sub.refl es⟩⟩

theorem logInv_nil {fs : FS W.G} (h : fs.moves = []) : LogInv W fs := by
  intro mv es es' h1
  simp [lastMove, h] at h1

/-- What a process may end with. -/
def Post (W : World) (init : List (Name × Ent) → Prop) (h : Bool)
    (r : Except Err (Option (W.G × W.G))) (fs : FS W.G) : Prop :=
  h = false ∧ ∀ g, r = .ok (some g) → FromOne W init fs g

theorem client_safe (hk : W.key.Valid) {init : List (Name × Ent) → Prop} {fs : FS W.G}
    (hi : Inv W init fs) (hl : LogInv W fs) (c : Client) :
    Safe W.key F (Trans W F) (fun _ => True) (c.prog W) false fs (Post W init) := by
  cases c with
  | build ow =>
    refine Safe.bind (Safe.mono (buildCached_safe hk hi hl ow) ?_)
    rintro h' r fs' ⟨rfl, h1⟩
    cases r with
    | ok g => exact ⟨rfl, by rintro g' hg; cases hg; exact h1 g rfl⟩
    | error e => exact ⟨rfl, by simp⟩
  | load =>
    refine Safe.mono (loadPath_free hk (.inl rfl) hi (fun _ _ h => h) .stay) ?_
    rintro h' r fs' ⟨rfl, -, h1⟩
    exact ⟨rfl, h1⟩

theorem start_good (hk : W.key.Valid) {fs : FS W.G} (hf : Fresh fs) (clients : Nat → Client) :
    Good W.key F (Trans W F) (fun _ => True) (fun _ => Post W (Content W fs))
      (start W fs clients) :=
  Good.start trivial fun i => client_safe hk hf.inv (logInv_nil hf.moves) (clients i)

theorem post_stable {init : List (Name × Ent) → Prop} :
    ∀ (_ : Nat) r (fs fs' : FS W.G), Trans W F fs fs' → Post W init false r fs →
      Post W init false r fs' :=
  fun _ _ _ _ h hp => ⟨rfl, fun g hg => (hp.2 g hg).trans h⟩

/-- The invariants of all reachable states. -/
theorem reach_good (hk : W.key.Valid) {fs : FS W.G} (hf : Fresh fs) {clients : Nat → Client}
    {crashes : Bool} {s : Sys W.G (Option (W.G × W.G))}
    (h : Reach W.key F crashes (start W fs clients) s) :
    Good W.key F (Trans W F) (fun _ => True) (fun _ => Post W (Content W fs)) s ∧
      Inv W (Content W fs) s.fs ∧ LogInv W s.fs := by
  obtain ⟨h1, h2⟩ := Good.reach .stay post_stable (fun _ _ => trivial) (start_good hk hf clients) h
  refine ⟨h1, rtg_keeps (Gd := Trans W F) (I := fun fs' => Inv W (Content W fs) fs' ∧ LogInv W fs')
    ?_ h2 ⟨hf.inv, logInv_nil hf.moves⟩⟩
  exact fun a b h hI => ⟨hI.1.trans hk h, hI.2.trans hk hI.1.wf h⟩

/-! ### C31: nobody sees a mixed or partial bundle -/

/-- C31: in every interleaving of any number of builders, overwriting builders and readers, with any
failures and crashes, graphs a process has obtained are what is read back of one pair that was built,
or of a directory that was there before. -/
theorem no_mixed_bundle (hk : W.key.Valid) {fs : FS W.G} (hf : Fresh fs) {clients : Nat → Client}
    {crashes : Bool} {s : Sys W.G (Option (W.G × W.G))}
    (h : Reach W.key F crashes (start W fs clients) s) {i : Nat} {g : W.G × W.G}
    (hi : s.proc i = .run (.ret (some g))) :
    (∃ p ∈ s.fs.built, Reloads W p g) ∨ ∃ es, Content W fs es ∧ Holds W es g := by
  obtain ⟨h1, -, -⟩ := reach_good hk hf h
  obtain ⟨-, h2⟩ := h1.safe i _ hi
  obtain ⟨o, h3 | ⟨p, hp, rfl⟩, h4⟩ := h2 g rfl
  · exact .inr ⟨o, h3, h4⟩
  · exact .inl ⟨p, hp, h4.bundleOf⟩

/-- An execution in which a process has built and published, and obtained the graphs it read back,
while all others have not started. -/
example : ∃ s, Reach Demo.world.key Demo.wild true
    (start Demo.world Demo.empty fun i => .build (i % 2 == 1)) s ∧
    s.proc 1 = .run (.ret (some (true, false))) := by
  obtain ⟨s, q, h1, -, h2, h3, -⟩ := Demo.goes_reach (F := Demo.wild) (crashes := true)
    (c := Demo.chance (true, false)) (n := 21) (i := 1)
    (P := fun h q _ => Demo.retIs (some (true, false)) q && !h) rfl (Demo.allowed _ _)
    (Demo.known [] (by simp) _)
    (s := start Demo.world Demo.empty fun i => .build (i % 2 == 1)) rfl (fun _ => rfl)
    (by decide +kernel)
  simp only [Bool.and_eq_true] at h3
  exact ⟨s, h1, by rw [h2, Demo.retIs_eq h3.1]⟩

/-! ### C32: a published bundle is never lost -/

/-- C32: once a bundle can be loaded, at every later instant of every execution with crashes and any
failures except of reading, a complete bundle is under the final name, or the final name is free and
a complete bundle is under a name recovery looks at. -/
theorem never_lost (hk : W.key.Valid) (hr : ReadsWork F) (hl : Lawful W) {fs : FS W.G}
    (hf : Fresh fs) {clients : Nat → Client} {crashes : Bool}
    {s s' : Sys W.G (Option (W.G × W.G))} (h : Reach W.key F crashes (start W fs clients) s)
    (hc : CompleteAt W s.fs W.key.digest) (h' : Reach W.key F crashes s s') :
    Recoverable W s'.fs := by
  obtain ⟨h1, h2, h3⟩ := reach_good hk hf h
  obtain ⟨-, h4⟩ := Good.reach .stay post_stable (fun _ _ => trivial) h1 h'
  have h5 := rtg_keeps (Gd := Trans W F)
    (I := fun fs' => (Inv W (Content W fs) fs' ∧ LogInv W fs') ∧ Kept W fs')
    (fun a b h hI => ⟨⟨hI.1.1.trans hk h, hI.1.2.trans hk hI.1.1.wf h⟩,
      hI.2.trans hk ⟨hr, hl⟩ hI.1.1.wf h⟩) h4 ⟨⟨h2, h3⟩, .inl hc⟩
  exact h5.2.recoverable

/-- An execution in which a builder that overwrites a bundle is killed after it has moved the old
bundle away. -/
theorem Demo.killed : ∃ s, Reach Demo.world.key Demo.calm true
    (start Demo.world Demo.full fun _ => .build true) s ∧
    s.proc 0 = .dead ∧ s.fs.entry "ab".toList = none ∧
    Demo.hasDir s.fs ".ab.previous-0".toList (bundleOf Demo.world true false) = true := by
  obtain ⟨s, q, h1, -, -, h3, -⟩ := Demo.goes_reach (F := Demo.calm) (crashes := true)
    (c := Demo.chance (true, true)) (n := 17) (i := 0)
    (P := fun _ _ fs => (fs.entry "ab".toList).isNone &&
      Demo.hasDir fs ".ab.previous-0".toList (bundleOf Demo.world true false)) rfl
    (Demo.allowed _ _) (Demo.known _ (by decide) _)
    (s := start Demo.world Demo.full fun _ => .build true) rfl (fun _ => rfl) (by decide +kernel)
  simp only [Bool.and_eq_true, Option.isNone_iff_eq_none] at h3
  exact ⟨_, .step h1 (.crash s 0 rfl), by simp, h3.1, h3.2⟩

example : ReadsWork Demo.calm ∧ Lawful Demo.world ∧
    CompleteAt Demo.world (start Demo.world Demo.full fun _ => .build true).fs "ab".toList :=
  ⟨Demo.reads, Demo.lawful, 0, _, rfl, rfl, Demo.complete true false⟩

theorem Plain.sub {es o : List (Name × Ent)} (h : Sub es o) (ho : Plain o) : Plain es :=
  fun e ent he hn => ho e ent (h e ent he) hn

theorem plain_bundleOf (t v : W.G) : Plain (bundleOf W t v) := by
  intro e ent he _
  have := lookup_mem he
  unfold bundleOf at this
  simp only [List.mem_cons, List.not_mem_nil, or_false] at this
  rcases this with h | h | h <;> cases h <;> exact ⟨_, rfl⟩

/-- C32: if no bundle file is a link or the like at the start, none ever is, and every reachable
directory is one that `recovery_restores` is about. -/
theorem stays_plain (hk : W.key.Valid) {fs : FS W.G} (hf : Fresh fs)
    (hp : ∀ es, Content W fs es → Plain es) {clients : Nat → Client} {crashes : Bool}
    {s : Sys W.G (Option (W.G × W.G))} (h : Reach W.key F crashes (start W fs clients) s) :
    Wf s.fs ∧ PlainAt W s.fs := by
  obtain ⟨-, h2, -⟩ := reach_good hk hf h
  refine ⟨h2.wf, ?_⟩
  intro n i es hn hi hes
  obtain ⟨o, h3, h4⟩ := h2.origin n i es (.inr hn) hi hes
  refine Plain.sub h4 ?_
  rcases h3 with h3 | ⟨p, -, rfl⟩
  · exact hp o h3
  · exact plain_bundleOf _ _

/-- C32: recovery without failures ends normally and makes the bundle loadable under the final name
again. -/
theorem recovery_restores (hk : W.key.Valid) {F' : Faults} (hF : NoFaults F') {fs : FS W.G}
    (hw : Wf fs) (hp : PlainAt W fs) (hr : Recoverable W fs) {fs' : FS W.G} {tr : Hist W.G}
    {x : Except Err Unit} (h : Run W.key F' (recoverResiduals W) fs tr x fs') :
    x = .ok () ∧ CompleteAt W fs' W.key.digest := by
  obtain ⟨-, -, hx⟩ := Safe.run (K := fun _ => True) (fun _ => trivial)
    (recoverResiduals_total hF hp) h
  refine ⟨hx, ?_⟩
  obtain ⟨b', h1, h2⟩ := h.alike (b := { fs with moves := [] }) ⟨rfl, rfl, rfl⟩
  obtain ⟨-, -, -, h3⟩ := Safe.run (K := fun _ => True) (fun _ => trivial)
    (recoverResiduals_safe (Gd := Trans W F') (bs := fs.built) (fs := { fs with moves := [] }) hk (fun _ _ h _ => h)
      ⟨⟨hw.inj, hw.lt⟩, logInv_nil rfl, rfl⟩) h1
  have hreads : ReadsWork F' := by
    refine ⟨?_, ?_, ?_⟩ <;> intros <;> exact hF _
  obtain ⟨i, es, h4, h5, h6⟩ := (h3 () hx).2 hreads hr
  exact ⟨i, es, by rw [← h2.entry]; exact h4, by rw [← h2.node]; exact h5, h6⟩

theorem Demo.content {l : List (Name × List (Name × Ent))} {P : List (Name × Ent) → Prop}
    (h : ∀ p ∈ l, P p.2) : ∀ es, Content Demo.world (Demo.disk l) es → P es := by
  rintro es ⟨n, i, -, -, h1⟩
  simp only [Demo.disk] at h1
  split at h1
  · rename_i p hp
    cases h1
    exact h p (List.mem_of_getElem? hp)
  · cases h1

/-- The old bundle is the only one, under its `.previous-` name. -/
theorem Demo.moved_plain : PlainAt Demo.world Demo.moved ∧ Recoverable Demo.world Demo.moved := by
  refine ⟨?_, .inr ⟨rfl, "0".toList, 0, _, rfl, rfl, Demo.complete true false⟩⟩
  intro n i es hn hi hes
  exact Demo.content (l := [(".ab.previous-0".toList, bundleOf Demo.world true false)])
    (P := Plain) (by simpa using plain_bundleOf (W := Demo.world) true false) es
    ⟨n, i, .inr hn, hi, hes⟩

example : ∃ tr x fs', Run Demo.world.key Demo.calm (recoverResiduals Demo.world) Demo.moved tr x fs' ∧
    (fs'.entry "ab".toList == some 0) = true :=
  Demo.ends_run (c := Demo.chance (true, true)) rfl (Demo.allowed _ _) (by decide)
    (by decide +kernel)
example : NoFaults Demo.calm := fun _ => ⟨id, id⟩

/-- C32: after recovery the bundle is loaded. -/
theorem recovered_loads (hk : W.key.Valid) {F' : Faults} (hF : NoFaults F') {fs : FS W.G}
    (hw : Wf fs) (hp : PlainAt W fs) (hr : Recoverable W fs) {fs' : FS W.G} {tr : Hist W.G}
    {x : Except Err (Option (W.G × W.G))}
    (h : Run W.key F' ((recoverResiduals W).bind fun _ => loadPath W W.final) fs tr x fs') :
    ∃ g, x = .ok (some g) := by
  have hreads : ReadsWork F' := by
    refine ⟨?_, ?_, ?_⟩ <;> intros <;> exact hF _
  rcases Run.of_bind h with ⟨tr1, tr2, u, fs1, h1, h2, -⟩ | ⟨e, h1, -⟩
  · obtain ⟨-, i, es, h4, h5, h6, g, h7⟩ := recovery_restores hk hF hw hp hr h1
    exact ⟨g, load_complete hreads h4 h5 h6 h7 h2⟩
  · cases (recovery_restores hk hF hw hp hr h1).1

/-! ### C33: a failed publication leaves the previous bundle in place -/

/-- C33: when publishing fails anywhere, and the steps that undo it work, the bundle is as it was
before, or (the failure came after the new one was put in place) the new one is there; in both cases
the temporary names are as before. -/
theorem failed_publish (hk : W.key.Valid) (hu : Undo W F) {fs fs' : FS W.G} (hw : Wf fs)
    (hc : CompleteAt W fs W.key.digest) {p : W.G × W.G} {tr : Hist W.G} {x : Err}
    (h : Run W.key F (publish W (W.opt p.1) (W.opt p.2)) fs tr (.error x) fs') :
    (∀ n, W.key.IsTmp n → fs'.entry n = fs.entry n) ∧
      (Untouched W.key.digest fs fs' ∨ ∃ i, fs'.entry W.key.digest = some i ∧
        fs'.node i = .dir (bundleOf W (W.opt p.1) (W.opt p.2)) ∧ ∃ g, Reloads W p g) := by
  obtain ⟨b', h1, h2⟩ := h.alike (b := { fs with moves := [], built := [p] }) ⟨rfl, rfl, rfl⟩
  obtain ⟨-, -, -, -, h3⟩ := Safe.run (K := fun _ => True) (fun _ => trivial)
    (publish_safe (Gd := Trans W F) (bs := [p])
      (fs := { fs with moves := [], built := [p] }) hk (fun _ _ h _ => h)
      ⟨⟨hw.inj, hw.lt⟩, logInv_nil rfl, rfl⟩ (fun _ _ => hc) (p := p) (by simp)) h1
  rcases h3 x rfl hu with h4 | h4
  · refine ⟨fun n hn => by rw [← h2.entry]; exact h4.tmp n hn, .inl ⟨?_, ?_⟩⟩
    · rw [← h2.entry]
      exact h4.final
    · intro i hi
      rw [← h2.node]
      exact h4.node _ i hi
  · refine ⟨fun n hn => by rw [← h2.entry]; exact h4.tmp n hn, .inr ?_⟩
    obtain ⟨t, h5, h6⟩ := h4.new
    exact ⟨t, by rw [← h2.entry]; exact h5, by rw [← h2.node]; exact h6, h4.reloads⟩

/-- C33: so a bundle is loadable after a failed publication. -/
theorem failed_publish_loadable (hk : W.key.Valid) (hu : Undo W F) (hl : Lawful W)
    {fs fs' : FS W.G} (hw : Wf fs) (hc : CompleteAt W fs W.key.digest) {p : W.G × W.G}
    {tr : Hist W.G} {x : Err}
    (h : Run W.key F (publish W (W.opt p.1) (W.opt p.2)) fs tr (.error x) fs') :
    CompleteAt W fs' W.key.digest := by
  rcases (failed_publish hk hu hw hc h).2 with h1 | ⟨i, h1, h2, g, h3⟩
  · obtain ⟨i, es, h2, h3, h4⟩ := hc
    exact ⟨i, es, h1.1.trans h2, (h1.2 i h2).trans h3, h4⟩
  · exact ⟨i, _, h1, h2, bundleOf_names _ _, g, bundleOf_holds hl h3⟩

/-- A publication that fails when the new bundle is to be renamed. The old one has been moved away by
then, and is moved back. -/
example : ∃ tr x fs', Run Demo.world.key ⟨fun o => o = .rename ".ab.tmp-0".toList "ab".toList,
      fun _ => False⟩ (publish Demo.world true true) Demo.full tr x fs' ∧
    (match x with | .error e => e == .os | _ => false) && fs'.moves.length == 2 := by
  refine Demo.ends_run (l := [("ab".toList, bundleOf Demo.world true false)])
    (c := { Demo.chance (true, true) with
      fails := fun o => if o = .rename ".ab.tmp-0".toList "ab".toList then some .os else none })
    rfl ?_ (by decide)
    (by decide +kernel)
  refine ⟨?_, fun h => (h rfl).elim⟩
  intro o e h
  simp only [Option.ite_none_right_eq_some] at h
  exact ⟨h.1, by rw [h.1]; simp⟩
example : Undo Demo.world ⟨fun o => o = .rename ".ab.tmp-0".toList "ab".toList, fun _ => False⟩ := by
  constructor <;> simp
  rintro n hn rfl
  exact Key.tmp_not_previous (k := Demo.world.key) (n := ".ab.tmp-0".toList)
    ⟨"0".toList, rfl⟩ hn

/-! ### C34: only the lock holder changes anything -/

/-- C34: at most one process holds the lock at any time of any execution. -/
theorem one_holder (hk : W.key.Valid) {fs : FS W.G} (hf : Fresh fs) {clients : Nat → Client}
    {crashes : Bool} {s : Sys W.G (Option (W.G × W.G))}
    (h : Reach W.key F crashes (start W fs clients) s) {i j : Nat} (hi : s.held i = true)
    (hj : s.held j = true) : i = j :=
  (reach_good hk hf h).1.one i j hi hj

/-- C34: a step that changes the directory is one of the process that holds the lock. -/
theorem only_holder_changes (hk : W.key.Valid) {fs : FS W.G} (hf : Fresh fs)
    {clients : Nat → Client} {crashes : Bool} {s s' : Sys W.G (Option (W.G × W.G))}
    (h : Reach W.key F crashes (start W fs clients) s) {i : Nat} (hs : Step W.key F crashes i s s')
    (hne : s'.fs ≠ s.fs) : s.held i = true := by
  obtain ⟨-, -, h1⟩ := Good.step .stay post_stable (fun _ _ => trivial) (reach_good hk hf h).1 hs
  by_contra hh
  exact hne (h1 (by simpa using hh))

/-- C34: a process that has ended does not hold the lock any more. -/
theorem ended_released (hk : W.key.Valid) {fs : FS W.G} (hf : Fresh fs) {clients : Nat → Client}
    {crashes : Bool} {s : Sys W.G (Option (W.G × W.G))}
    (h : Reach W.key F crashes (start W fs clients) s) {i : Nat}
    (hi : s.proc i = .dead ∨ ∃ x, s.proc i = .run (finished x)) : s.held i = false := by
  obtain ⟨h1, -, -⟩ := reach_good hk hf h
  rcases hi with hi | ⟨x, hi⟩
  · exact h1.dead i hi
  · have := h1.safe i _ hi
    cases x with
    | ok a => exact this.1
    | error e => exact this.1

/-- A state in which a process holds the lock, and its next step makes a directory. -/
example : ∃ s s', Reach Demo.world.key Demo.wild true
    (start Demo.world Demo.empty fun _ => .build false) s ∧
    Step Demo.world.key Demo.wild true 3 s s' ∧ s.held 3 = true ∧ s'.fs ≠ s.fs := by
  obtain ⟨s, q, h1, -, h2, h3, h4⟩ := Demo.goes_reach (F := Demo.wild) (crashes := true)
    (c := Demo.chance (true, true)) (n := 8) (i := 3)
    (P := fun h q _ => h && match q with | .op .build _ => true | _ => false) rfl
    (Demo.allowed _ _) (Demo.known [] (by simp) _)
    (s := start Demo.world Demo.empty fun _ => .build false) rfl (fun _ => rfl)
    (by decide +kernel)
  simp only [Bool.and_eq_true] at h3
  obtain ⟨h5, h6⟩ := h3
  split at h6
  · refine ⟨s, _, h1, .op s 3 .build _ (.ok (true, true)) _ h2 (.inl ⟨(true, true), rfl, rfl⟩)
      (by intro h; cases h), h5, ?_⟩
    intro h
    have := congrArg FS.built h
    simp at this
  · cases h6

/-! ### C35: concurrent first users build at most once -/

/-- C35: without crashes, overwriting and failures in the steps of `Calm`, in every interleaving of
any number of users of a key at most one pair is built, whatever is there at the start. If no bundle
can be loaded at the start, all users that end normally have the same graphs. -/
theorem built_once (hk : W.key.Valid) (hc : Calm W F) (hl : Lawful W)
    (hp : ∀ g, W.parse (W.ser g) ≠ none) {fs : FS W.G} (hf : Fresh fs) {s : Sys W.G (W.G × W.G)}
    (h : Reach W.key F false (Sys.start fs fun _ => buildCached W false) s) :
    s.fs.built.length ≤ 1 ∧ ((∀ es g, Content W fs es → ¬ Holds W es g) →
      ∀ i j g g', s.proc i = .run (.ret g) → s.proc j = .run (.ret g') → g = g') := by
  let Q : Nat → Bool → Except Err (W.G × W.G) → FS W.G → Prop := fun _ h' r fs' =>
    h' = false ∧ ∀ g, r = .ok g → FromOne W (Content W fs) fs' g
  have h0 : Good W.key F (OnceStep W F) (Settled W (Content W fs)) Q
      (Sys.start fs fun _ => buildCached W false) :=
    Good.start ⟨logInv_nil hf.moves, hf.inv, .inl hf.built⟩ fun _ =>
      buildCached_once hk hc hl hp hf.inv
  obtain ⟨h1, h2⟩ := Good.reach (crashes := false) (fun fs => ⟨.stay fs, .inl rfl⟩)
    (fun _ _ _ _ h hq => ⟨rfl, fun g hg => (hq.2 g hg).trans h.1⟩) (by simp) h0 h
  have hlen : s.fs.built.length ≤ 1 := by
    refine rtg_keeps (Gd := OnceStep W F) (I := fun fs => fs.built.length ≤ 1) ?_ h2 ?_
    · rintro a b ⟨ht, hb⟩ ha
      rcases hb with hb | hb
      · rw [hb]; exact ha
      · have key : b.built = a.built ∨ ∃ p, b.built = p :: a.built := by
          cases ht with
          | stay => exact .inl rfl
          | recover _ _ _ _ h => exact .inl h.built
          | clean _ _ _ _ h => exact .inl h.built
          | cutTmp _ _ _ h => exact .inl h.built
          | cutCorrupt _ _ _ h => exact .inl h.built
          | quarantine _ _ _ _ h => exact .inl h.built
          | build p => exact .inr ⟨p, rfl⟩
          | mkdtemp => exact .inl rfl
          | write => exact .inl (write_built _ _ _ _)
          | moveAway _ _ _ _ _ h => exact .inl h.built
          | putNew _ _ _ _ _ _ _ _ _ h => exact .inl h.built
          | putBack _ _ _ _ _ _ _ h => exact .inl h.built
        rcases key with h | ⟨p, h⟩
        · rw [h, hb]; simp
        · rw [h, hb]; simp
    · rw [show (Sys.start fs fun _ => buildCached W false).fs = fs from rfl, hf.built]
      simp
  refine ⟨hlen, ?_⟩
  intro hnone i j g g' hi hj
  obtain ⟨p, hp1, x, y, hx, hy, rfl⟩ := ((h1.safe i _ hi).2 g rfl).reloads hnone
  obtain ⟨p', hp1', x', y', hx', hy', rfl⟩ := ((h1.safe j _ hj).2 g' rfl).reloads hnone
  obtain rfl : p = p' := by
    match hb : s.fs.built, hlen, hp1, hp1' with
    | [q], _, h3, h4 =>
      simp only [List.mem_singleton] at h3 h4
      rw [h3, h4]
  rw [hx] at hx'
  cases hx'
  rw [hy] at hy'
  cases hy'
  rfl

/-- C35: if a bundle can be loaded at the start, nothing is built and all users that end normally have
its graphs. -/
theorem warm_users (hk : W.key.Valid) (hr : ReadsWork F) (hl : Lawful W) {fs : FS W.G}
    (hf : Fresh fs) {i : Ino} {es : List (Name × Ent)} {g0 : W.G × W.G}
    (hi : fs.entry W.key.digest = some i) (hes : fs.node i = .dir es) (hn : NamesOk es)
    (hg : Holds W es g0) {s : Sys W.G (W.G × W.G)}
    (h : Reach W.key F false (Sys.start fs fun _ => buildCached W false) s) :
    s.fs.built = [] ∧ ∀ i g, s.proc i = .run (.ret g) → g = g0 := by
  have hs : Stands W es fs := ⟨⟨hf.wf, logInv_nil hf.moves, hf.built⟩, i, hi, hes⟩
  have h0 : Good W.key F (NoBuild W F) (Stands W es)
      (fun _ h' r _ => h' = false ∧ ∀ g, r = .ok g → g = g0)
      (Sys.start fs fun _ => buildCached W false) :=
    Good.start hs fun _ => buildCached_warm hk ⟨hr, hl⟩ hn hg hs
  obtain ⟨h1, h2⟩ := Good.reach (crashes := false) (fun fs => ⟨.stay fs, rfl⟩)
    (fun _ _ _ _ _ hp => hp) (by simp) h0 h
  refine ⟨rtg_keeps (Gd := NoBuild W F) (I := fun fs => fs.built = [])
    (fun a b h ha => h.2.trans ha) h2 hf.built, ?_⟩
  intro i g hi
  exact (h1.safe i _ hi).2 g rfl

example : ∃ s, Reach Demo.world.key Demo.wild false
    (Sys.start Demo.full fun _ => buildCached Demo.world false) s ∧
    s.proc 4 = .run (.ret (true, false)) := by
  obtain ⟨s, q, h1, -, h2, h3, -⟩ := Demo.goes_reach (F := Demo.wild) (crashes := false)
    (c := Demo.chance (true, true)) (n := 5) (i := 4)
    (P := fun _ q _ => Demo.retIs (true, false) q) rfl (Demo.allowed _ _)
    (Demo.known _ (by decide) _)
    (s := Sys.start Demo.full fun _ => buildCached Demo.world false) rfl (fun _ => rfl)
    (by decide +kernel)
  exact ⟨s, h1, by rw [h2, Demo.retIs_eq h3]⟩

/-- Two users, one after the other: both end with the pair the first one has built. -/
example : ∃ s, Reach Demo.world.key Demo.calm false
    (Sys.start Demo.empty fun _ => buildCached Demo.world false) s ∧
    s.proc 0 = .run (.ret (true, false)) ∧ s.proc 1 = .run (.ret (true, false)) := by
  obtain ⟨s, q, h1, hk, h2, h3, h4⟩ := Demo.goes_reach (F := Demo.calm) (crashes := false)
    (c := Demo.chance (true, false)) (n := 24) (i := 0)
    (P := fun h q fs => (Demo.retIs (true, false) q && !h) &&
      (Demo.goes (Demo.chance (false, true)) 5 (buildCached Demo.world false) fs
        fun _ q _ => Demo.retIs (true, false) q))
    rfl (Demo.allowed _ _) (Demo.known [] (by simp) _)
    (s := Sys.start Demo.empty fun _ => buildCached Demo.world false) rfl (fun _ => rfl)
    (by decide +kernel)
  simp only [Bool.and_eq_true, Bool.not_eq_true'] at h3
  obtain ⟨s', q', h5, -, h6, h7, h8⟩ := Demo.goes_reach (F := Demo.calm) (crashes := false)
    (c := Demo.chance (false, true)) (n := 5) (i := 1) (s := s)
    (P := fun _ q _ => Demo.retIs (true, false) q)
    (p := buildCached Demo.world false) rfl (Demo.allowed _ _) hk
    (by rw [(h4 1 (by simp)).2]; rfl)
    (by intro j; by_cases hj : j = 0; exacts [hj ▸ h3.1.2, (h4 j hj).1])
    h3.2
  refine ⟨s', h1.trans h5, ?_, ?_⟩
  · rw [(h8 0 (by simp)).2, h2, Demo.retIs_eq h3.1.1]
  · rw [h6, Demo.retIs_eq h7]
example : Calm Demo.world Demo.calm ∧ ∀ es g, Content Demo.world Demo.empty es →
    ¬ Holds Demo.world es g :=
  ⟨Demo.isCalm, fun es g => Demo.content (l := []) (P := fun es => ¬ Holds Demo.world es g)
    (by simp) es⟩

/-! ### C38: cleanup never deletes foreign data -/

/-- C38: whatever fails, removing a bundle directory leaves everything outside of it alone, and its
entries that are neither links nor one of the three regular files; if there is such an entry (or the
name is not a directory), nothing at all is removed. -/
theorem remove_only_known {n : Name} {be : Bool} {fs fs' : FS W.G} {tr : Hist W.G}
    {x : Except Err Bool} (h : Run W.key F (removeFlat W n be) fs tr x fs') :
    (∀ m, m ≠ n → fs'.entry m = fs.entry m) ∧
    (∀ j, fs.entry n ≠ some j → fs'.node j = fs.node j) ∧
    (∀ i es e ent, fs.entry n = some i → fs.node i = .dir es → es.lookup e = some ent →
      ((∀ b, ent = .reg b → e ≠ "tagger.fst".toList ∧ e ≠ "verbalizer.fst".toList ∧
        e ≠ "manifest.json".toList) ∧ ent ≠ .link) → fs' = fs) ∧
    (∀ i, fs.entry n = some i → (∀ es, fs.node i ≠ .dir es) → fs' = fs) := by
  obtain ⟨-, -, h1, h2⟩ := Safe.run (K := fun _ => True) (fun _ => trivial)
    (removeFlat_safe (Gd := Any W) (F := F) (n := n) (be := be) (fs := fs) (fun _ => trivial)
      fun _ _ _ _ => trivial) h
  refine ⟨h1.other, ?_, ?_, ?_⟩
  · intro j hj
    rcases h1.node j with h3 | ⟨h3, -⟩
    · exact h3
    · exact (hj h3).elim
  · intro i es e ent hi hes he hnot
    refine h2 ⟨i, hi, ?_⟩
    intro es' hes'
    rw [hes] at hes'
    cases hes'
    refine ⟨e, ent, he, ?_⟩
    rintro (h3 | ⟨b, h3, h4⟩)
    · exact hnot.2 h3
    · obtain ⟨h5, h6, h7⟩ := hnot.1 b h3
      rcases h4 with h4 | h4 | h4
      · exact h5 h4
      · exact h6 h4
      · exact h7 h4
  · intro i hi hnot
    exact h2 ⟨i, hi, fun es hes => (hnot es hes).elim⟩

/-- A directory with a foreign file: the bundle's file beside it is not removed either. -/
example : ∃ tr x fs', Run Demo.world.key Demo.wild (removeFlat Demo.world ".ab.corrupt-0".toList true)
    Demo.junk tr x fs' ∧
    Demo.hasDir fs' ".ab.corrupt-0".toList
      [("tagger.fst".toList, .reg []), ("notes.txt".toList, .reg [])] = true :=
  Demo.ends_run (c := Demo.chance (true, true)) rfl (Demo.allowed _ _) (by decide)
    (by decide +kernel)
/-- A directory without one is removed. -/
example : ∃ tr x fs', Run Demo.world.key Demo.wild (removeFlat Demo.world "ab".toList true)
    Demo.junk tr x fs' ∧ (fs'.entry "ab".toList).isNone = true :=
  Demo.ends_run (c := Demo.chance (true, true)) rfl (Demo.allowed _ _) (by decide)
    (by decide +kernel)

/-! ### C39: other keys' directories are unchanged -/

/-- C39: in every execution, a name that is not the key's digest or a residual name of it stands for
the same unchanged node. -/
theorem others_untouched (hk : W.key.Valid) {fs : FS W.G} (hf : Fresh fs) {clients : Nat → Client}
    {crashes : Bool} {s : Sys W.G (Option (W.G × W.G))}
    (h : Reach W.key F crashes (start W fs clients) s) {n : Name} (hn : ¬ W.key.Owns n) :
    Untouched n fs s.fs := by
  obtain ⟨-, h2⟩ := Good.reach .stay post_stable (fun _ _ => trivial) (start_good hk hf clients) h
  exact (rtg_keeps (Gd := Trans W F) (I := fun fs' => Wf fs' ∧ Untouched n fs fs')
    (fun a b h hI => ⟨hI.1.trans h, hI.2.trans (h.untouched hI.1 hn)⟩) h2
    ⟨hf.wf, .refl _ _⟩).2

/-- C39: in particular all directories of another key with a digest of the same length. -/
theorem other_key_untouched (hk : W.key.Valid) {fs : FS W.G} (hf : Fresh fs)
    {clients : Nat → Client} {crashes : Bool} {s : Sys W.G (Option (W.G × W.G))}
    (h : Reach W.key F crashes (start W fs clients) s) {k' : Key} (hk' : k'.Valid)
    (hlen : k'.digest.length = W.key.digest.length) (hne : k'.digest ≠ W.key.digest) {n : Name}
    (hn : n = k'.digest ∨ ∃ u, n = k'.tmp ++ u ∨ n = k'.previous ++ u ∨ n = k'.corrupt ++ u) :
    Untouched n fs s.fs := by
  refine others_untouched hk hf h (Key.owns_disjoint hlen hk' hk hne ?_)
  rcases hn with rfl | ⟨u, rfl | rfl | rfl⟩
  · exact .inl rfl
  · exact .inr (.inl ⟨u, rfl⟩)
  · exact .inr (.inr (.inl ⟨u, rfl⟩))
  · exact .inr (.inr (.inr ⟨u, rfl⟩))

/-- C39: recovery on its own, whatever fails. -/
theorem recovery_untouched (hk : W.key.Valid) {fs fs' : FS W.G} (hw : Wf fs) {tr : Hist W.G}
    {x : Except Err Unit} (h : Run W.key F (recoverResiduals W) fs tr x fs') {n : Name}
    (hn : ¬ W.key.Owns n) : Untouched n fs fs' := by
  obtain ⟨b', h1, h2⟩ := h.alike (b := { fs with moves := [] }) ⟨rfl, rfl, rfl⟩
  obtain ⟨-, -, -, h3⟩ := Safe.run (K := fun _ => True) (fun _ => trivial)
    (Safe.inv (I := fun fs' => Wf fs' ∧ Untouched n fs fs') (fs := { fs with moves := [] })
      (fun a b h hI => ⟨hI.1.trans h, hI.2.trans (h.untouched hI.1 hn)⟩)
      ⟨⟨hw.inj, hw.lt⟩, rfl, fun _ _ => rfl⟩
      (recoverResiduals_safe (Gd := Trans W F) (bs := fs.built) (fs := { fs with moves := [] }) hk (fun _ _ h _ => h)
        ⟨⟨hw.inj, hw.lt⟩, logInv_nil rfl, rfl⟩)) h1
  exact ⟨by rw [← h2.entry]; exact h3.1, fun i hi => by rw [← h2.node]; exact h3.2 i hi⟩

example : ¬ Demo.world.key.Owns "cd".toList ∧
    ((⟨"cd".toList, []⟩ : Key).Valid ∧ "cd".toList.length = Demo.world.key.digest.length) := by
  refine ⟨?_, by simp [Key.Valid], rfl⟩
  rintro (h | h | h | h)
  · exact absurd h (by decide)
  all_goals exact absurd (Key.head_of_prefix h) (by decide)

/-! ### C40: sources that change during a build are not cached -/

/-- Operations that put something into the cache. -/
def Op.Publishes (o : Op) : Prop := o = .mkdtemp ∨ ∃ n e b, o = .write n e b

theorem Op.Publishes.makes {o : Op} (h : o.Publishes) : o.makes = true := by
  rcases h with rfl | ⟨n, e, b, rfl⟩ <;> rfl

/-- What the operations of `build_fst` look like: there is no check of the fingerprint; or there is
one with a wrong answer, then nothing is put into the cache and the process does not end normally; or
there is exactly one with the right answer, directly after the build and before anything else. -/
def Shape (W : World) {α : Type} (tr : Hist W.G) (q : Prog W.G α) : Prop :=
  (∀ e ∈ tr, Quietly e.1 ∨ e.1 = .build) ∨
  (∃ tr1 p r tr2, tr = tr1 ++ ⟨.build, .ok p⟩ :: ⟨.fingerprint, r⟩ :: tr2 ∧
    r ≠ .ok W.key.fingerprint ∧ (∀ e ∈ tr1, Quietly e.1) ∧ (∀ e ∈ tr2, Quietly e.1) ∧
    ∀ g, q ≠ .ret g) ∨
  ∃ tr1 p tr2, tr = tr1 ++ ⟨.build, .ok p⟩ :: ⟨.fingerprint, .ok W.key.fingerprint⟩ :: tr2 ∧
    (∀ e ∈ tr1, Quietly e.1) ∧ ∀ e ∈ tr2, e.1 ≠ .fingerprint

theorem Shape.quiet {α : Type} {tr : Hist W.G} {q : Prog W.G α} (h : ∀ e ∈ tr, Quietly e.1) :
    Shape W tr q := .inl fun e he => .inl (h e he)

theorem Shape.before {α : Type} {tr tr' : Hist W.G} {q : Prog W.G α} (h' : Shape W tr' q)
    (h : ∀ e ∈ tr, Quietly e.1) : Shape W (tr ++ tr') q := by
  have app : ∀ {tr1 : Hist W.G}, (∀ e ∈ tr1, Quietly e.1) → ∀ e ∈ tr ++ tr1, Quietly e.1 := by
    intro tr1 h1 e he
    rcases List.mem_append.1 he with he | he
    · exact h e he
    · exact h1 e he
  rcases h' with h' | ⟨tr1, p, r, tr2, rfl, h1, h2, h3, h4⟩ | ⟨tr1, p, tr2, rfl, h1, h2⟩
  · refine .inl fun e he => ?_
    rcases List.mem_append.1 he with he | he
    · exact .inl (h e he)
    · exact h' e he
  · exact .inr (.inl ⟨tr ++ tr1, p, r, tr2, by simp, h1, app h2, h3, h4⟩)
  · exact .inr (.inr ⟨tr ++ tr1, p, tr2, by simp, app h1, h2⟩)

theorem Shape.after {α β : Type} {tr tr' : Hist W.G} {q : Prog W.G α} {q' : Prog W.G β}
    (h' : Shape W tr q) (h : ∀ e ∈ tr', Quietly e.1)
    (hq : (∀ g, q ≠ .ret g) → ∀ g, q' ≠ .ret g) : Shape W (tr ++ tr') q' := by
  rcases h' with h' | ⟨tr1, p, r, tr2, rfl, h1, h2, h3, h4⟩ | ⟨tr1, p, tr2, rfl, h1, h2⟩
  · refine .inl fun e he => ?_
    rcases List.mem_append.1 he with he | he
    · exact h' e he
    · exact .inl (h e he)
  · refine .inr (.inl ⟨tr1, p, r, tr2 ++ tr', by simp, h1, h2, ?_, hq h4⟩)
    intro e he
    rcases List.mem_append.1 he with he | he
    · exact h3 e he
    · exact h e he
  · refine .inr (.inr ⟨tr1, p, tr2 ++ tr', by simp, h1, ?_⟩)
    intro e he
    rcases List.mem_append.1 he with he | he
    · exact h2 e he
    · intro hf
      have := h e he
      rw [hf] at this
      cases this

theorem Only.mono {G α : Type} {P Q : Op → Prop} (h : ∀ o, P o → Q o) {p : Prog G α}
    (hp : Only P p) : Only Q p := by
  induction p with
  | ret a => trivial
  | raise e => trivial
  | op o k ih => exact ⟨h o hp.1, fun r => ih r (hp.2 r)⟩

abbrev NoCheck (o : Op) : Prop := o ≠ .fingerprint

theorem Quietly.noCheck {o : Op} (h : Quietly o) : NoCheck o := by
  rintro rfl
  cases h

theorem publish_noCheck (t v : W.G) : Only NoCheck (publish W t v) := by
  have q : ∀ {α} {p : Prog W.G α}, Only Quietly p → Only NoCheck p := fun h => h.mono fun _ =>
    Quietly.noCheck
  have vf : ∀ n e, Only NoCheck (verifyFst W n e) := by
    intro n e
    refine .bind (.call (by simp)) fun ent => .bind .ofExcept ?_
    intro b
    split <;> trivial
  have st : ∀ n, Only NoCheck (stage W n t v) := fun n =>
    .bind (.call (by simp)) fun _ => .bind (.call (by simp)) fun _ => .bind (vf _ _) fun _ =>
      .bind (vf _ _) fun _ => .call (by simp)
  have mc : Only NoCheck (moveCurrent W) := by
    refine .bind (q (lexists_quiet _)) ?_
    intro there
    split
    · trivial
    · refine .bind (.bind (.call (by simp)) ?_) fun _ => .bind (.call (by simp)) fun _ =>
        .bind (q (replace_quiet _ _)) fun _ => .ret
      intro st
      split <;> trivial
  have rs : ∀ o x, Only NoCheck (restore W o x) := by
    intro o x
    cases o with
    | none => trivial
    | some p =>
      refine .bind (q (lexists_quiet _)) ?_
      intro there
      split
      · trivial
      · refine .bind (q (lexists_quiet _)) ?_
        intro present
        split
        · trivial
        · exact .bind (q (replace_quiet _ _)) fun _ => .raise
  refine .bind (.call (by simp)) fun tmp => .bind (.tryExcept (.bind (st _) fun _ => .bind mc fun o =>
    .bind (.tryExcept (q (replace_quiet _ _)) (rs o)) fun _ => .ret) ?_) ?_
  · intro x
    refine .bind (.bind (q (lexists_quiet _)) ?_) fun _ => .raise
    intro there
    split
    · exact .bind (q (removeFlat_quiet _ _)) fun _ => .ret
    · trivial
  · intro o
    cases o with
    | none => trivial
    | some p => exact .bind (q (removeFlat_quiet _ _)) fun _ => .ret

theorem critical_shape {ow : Bool} {tr : Hist W.G} {q : Prog W.G (W.G × W.G)}
    (h : Steps (critical W ow) tr q) : Shape W tr q := by
  have find : Only Quietly (if ow then .ret none else
      (loadPath W W.final).bind fun graphs =>
      match graphs with
      | some g => .ret (some g)
      | none => (removeInvalid W).bind fun _ => .ret none : Prog W.G (Option (W.G × W.G))) := by
    split
    · trivial
    · refine .bind (loadPath_quiet _) ?_
      intro gs
      cases gs with
      | some g => trivial
      | none => exact .bind removeInvalid_quiet fun _ => .ret
  unfold critical at h
  rcases Steps.of_bind h with ⟨p', h1, -⟩ | ⟨tr1, tr2, u, h1, h2, rfl⟩
  · exact .quiet (recoverResiduals_quiet.steps h1)
  · refine Shape.before ?_ (recoverResiduals_quiet.steps h1)
    clear h h1
    rcases Steps.of_bind h2 with ⟨p', h1, -⟩ | ⟨tr1, tr3, found, h1, h3, rfl⟩
    · exact .quiet (find.steps h1)
    · refine Shape.before ?_ (find.steps h1)
      clear h1 h2
      cases found with
      | some g =>
        cases h3
        exact .quiet (by simp)
      | none =>
        simp only at h3
        rcases Steps.of_bind h3 with ⟨p', h1, -⟩ | ⟨tr4, tr5, p, h1, h4, rfl⟩
        · rcases Steps.of_call h1 with rfl | ⟨r, rfl, -⟩
          · exact .quiet (by simp)
          · exact .inl (by simp)
        · obtain rfl : tr4 = [⟨.build, .ok p⟩] := by
            rcases Steps.of_call h1 with rfl | ⟨r, rfl, h5⟩
            · cases h1
            · cases r <;> cases h5
              rfl
          rcases Steps.of_bind h4 with ⟨p', h5, h6⟩ | ⟨tr6, tr7, s, h5, h6, rfl⟩
          · rcases Steps.of_call h5 with rfl | ⟨r, rfl, rfl⟩
            · exact .inl (by simp)
            · cases r with
              | error x =>
                refine .inr (.inl ⟨[], p, .error x, [], rfl, by simp, by simp, by simp, ?_⟩)
                subst h6
                exact fun g hg => by cases hg
              | ok s =>
                by_cases hs : s = W.key.fingerprint
                · subst hs
                  exact .inr (.inr ⟨[], p, [], rfl, by simp, by simp⟩)
                · refine .inr (.inl ⟨[], p, .ok s, [], rfl, by simpa using hs, by simp, by simp, ?_⟩)
                  subst h6
                  intro g hg
                  simp only [finished, Prog.bind, ne_eq, hs, not_false_eq_true, if_true] at hg
                  cases hg
          · obtain rfl : tr6 = [⟨.fingerprint, .ok s⟩] := by
              rcases Steps.of_call h5 with rfl | ⟨r, rfl, h7⟩
              · cases h5
              · cases r <;> cases h7
                rfl
            by_cases hs : s = W.key.fingerprint
            · subst hs
              refine .inr (.inr ⟨[], p, tr7, by simp, by simp, ?_⟩)
              simp only [ne_eq, not_true_eq_false, if_false] at h6
              refine Only.steps (P := NoCheck) (.bind (publish_noCheck _ _) fun _ =>
                .bind ((loadPath_quiet _).mono fun _ => Quietly.noCheck) ?_) h6
              intro gs
              cases gs <;> trivial
            · simp only [ne_eq, hs, not_false_eq_true, if_true] at h6
              cases h6
              exact .inr (.inl ⟨[], p, .ok s, [], by simp, by simpa using hs, by simp, by simp,
                by simp⟩)

theorem build_shape {im ow : Bool} {tr : Hist W.G} {q : Prog W.G (W.G × W.G)}
    (h : Steps (buildFst W im ow) tr q) : Shape W tr q := by
  have locked : ∀ {tr q}, Steps (withLock W (critical W ow)) tr q → Shape W tr q := by
    intro tr q h
    rcases Steps.of_bind h with ⟨p', h1, -⟩ | ⟨tr1, tr2, u, h1, h2, rfl⟩
    · exact .quiet (Only.steps (P := Quietly) (.call rfl) h1)
    · refine Shape.before ?_ (Only.steps (P := Quietly) (.call rfl) h1)
      clear h h1
      rcases Steps.of_bind h2 with ⟨p', h1, -⟩ | ⟨tr1, tr3, u, h1, h3, rfl⟩
      · exact .quiet (Only.steps (P := Quietly) (.call rfl) h1)
      · refine Shape.before ?_ (Only.steps (P := Quietly) (.call rfl) h1)
        clear h1 h2
        have body : ∀ {tr q}, Steps ((Prog.call .writeOwner).bind fun _ => critical W ow) tr q →
            Shape W tr q := by
          intro tr q h
          rcases Steps.of_bind h with ⟨p', h1, -⟩ | ⟨tr1, tr2, u, h1, h2, rfl⟩
          · exact .quiet (Only.steps (P := Quietly) (.call rfl) h1)
          · exact (critical_shape h2).before (Only.steps (P := Quietly) (.call rfl) h1)
        rcases Steps.of_tryFinally h3 with ⟨p', h1, rfl⟩ | ⟨tr1, tr2, x, f', h1, h2, rfl, rfl⟩
        · have := (body h1).after (tr' := []) (q' := p'.tryFinally (Prog.call .release)) (by simp) ?_
          · simpa using this
          · intro hp g hg
            cases p' with
            | ret a => exact hp a rfl
            | raise e => cases hg
            | op o k => cases hg
        · refine (body h1).after (Only.steps (P := Quietly) (.call rfl) h2) ?_
          intro hp g hg
          cases x with
          | ok a => exact hp a rfl
          | error e =>
            cases f' with
            | ret a => cases hg
            | raise e => cases hg
            | op o k => cases hg
  unfold buildFst at h
  split at h
  · refine .inl ?_
    have : Only (fun o => Quietly o ∨ o = .build) ((Prog.call .build).bind fun p =>
        .ret (W.opt p.1, W.opt p.2) : Prog W.G (W.G × W.G)) :=
      .bind (.call (.inr rfl)) fun _ => .ret
    exact this.steps h
  · unfold buildCached at h
    have hl : Only Quietly (if ow then .ret none else loadPath W W.final :
        Prog W.G (Option (W.G × W.G))) := by
      split
      · trivial
      · exact loadPath_quiet _
    rcases Steps.of_bind h with ⟨p', h1, -⟩ | ⟨tr1, tr2, found, h1, h2, rfl⟩
    · exact .quiet (hl.steps h1)
    · refine Shape.before ?_ (hl.steps h1)
      cases found with
      | some g =>
        cases h2
        exact .quiet (by simp)
      | none => exact locked h2

/-- C40: a process puts something into the cache only after it has built and then found the sources
with the fingerprint of its key; before that it has put nothing into the cache. -/
theorem published_unchanged {im ow : Bool} {tr : Hist W.G} {q : Prog W.G (W.G × W.G)}
    (h : Steps (buildFst W im ow) tr q) {e : Σ o : Op, Except Err (Res W.G o)} (he : e ∈ tr)
    (hp : e.1.Publishes) :
    ∃ tr1 p tr2, tr = tr1 ++ ⟨.build, .ok p⟩ :: ⟨.fingerprint, .ok W.key.fingerprint⟩ :: tr2 ∧
      ∀ e ∈ tr1, ¬ e.1.Publishes := by
  have loud : ∀ {o : Op}, o.Publishes → ¬ Quietly o := fun h hq => by
    have := h.makes
    rw [hq] at this
    cases this
  rcases build_shape h with h1 | ⟨tr1, p, r, tr2, rfl, h1, h2, h3, h4⟩ | ⟨tr1, p, tr2, rfl, h1, h2⟩
  · rcases h1 e he with h2 | h2
    · exact (loud hp h2).elim
    · rw [h2] at hp
      rcases hp with h | ⟨n, e, b, h⟩ <;> cases h
  · rcases List.mem_append.1 he with he | he
    · exact (loud hp (h2 e he)).elim
    · rcases List.mem_cons.1 he with rfl | he
      · rcases hp with h | ⟨n, e, b, h⟩ <;> cases h
      · rcases List.mem_cons.1 he with rfl | he
        · rcases hp with h | ⟨n, e, b, h⟩ <;> cases h
        · exact (loud hp (h3 e he)).elim
  · exact ⟨tr1, p, tr2, rfl, fun e he hp => loud hp (h1 e he)⟩

/-- C40: a process that has seen another fingerprint after its build has put nothing into the cache
and does not return graphs. -/
theorem changed_not_published {im ow : Bool} {tr : Hist W.G} {q : Prog W.G (W.G × W.G)}
    (h : Steps (buildFst W im ow) tr q) {s : Str} (hs : s ≠ W.key.fingerprint)
    (he : (⟨.fingerprint, .ok s⟩ : Σ o : Op, Except Err (Res W.G o)) ∈ tr) :
    (∀ e ∈ tr, ¬ e.1.Publishes) ∧ ∀ g, q ≠ .ret g := by
  have loud : ∀ {o : Op}, Quietly o → ¬ o.Publishes := fun hq h => by
    have := h.makes
    rw [hq] at this
    cases this
  rcases build_shape h with h1 | ⟨tr1, p, r, tr2, rfl, h1, h2, h3, h4⟩ | ⟨tr1, p, tr2, rfl, h1, h2⟩
  · rcases h1 _ he with h2 | h2 <;> cases h2
  · refine ⟨?_, h4⟩
    intro e he hp
    rcases List.mem_append.1 he with he | he
    · exact loud (h2 e he) hp
    · rcases List.mem_cons.1 he with rfl | he
      · rcases hp with h | ⟨n, e, b, h⟩ <;> cases h
      · rcases List.mem_cons.1 he with rfl | he
        · rcases hp with h | ⟨n, e, b, h⟩ <;> cases h
        · exact loud (h3 e he) hp
  · rcases List.mem_append.1 he with he | he
    · cases h1 _ he
    · rcases List.mem_cons.1 he with he | he
      · cases he
      · rcases List.mem_cons.1 he with he | he
        · cases he
          exact (hs rfl).elim
        · exact (h2 _ he rfl).elim

/-- A process that publishes. -/
example : ∃ tr x fs', Run Demo.world.key Demo.calm (buildFst Demo.world false false) Demo.empty
    tr x fs' ∧ (tr.any fun e => e.1 = .mkdtemp) = true :=
  Demo.ends_run (c := Demo.chance (true, true)) rfl (Demo.allowed _ _) (by simp)
    (by decide +kernel)
/-- A process whose sources have changed meanwhile. -/
example : ∃ tr x fs', Run Demo.world.key Demo.wild (buildFst Demo.world false false) Demo.empty
    tr x fs' ∧ (tr.any fun e => match e with
      | ⟨.fingerprint, .ok s⟩ => s == "new".toList
      | _ => false) = true :=
  Demo.ends_run (l := []) (c := { Demo.chance (true, true) with changed := some "new".toList }) rfl
    (Demo.allowed_wild _ rfl) (by simp) (by decide +kernel)

/-! ### C42: without a cache directory nothing is touched -/

/-- C42: with `cache_dir=False` the only operation is one build. -/
theorem memory_only {ow : Bool} {tr : Hist W.G} {q : Prog W.G (W.G × W.G)}
    (h : Steps (buildFst W true ow) tr q) : tr = [] ∨ ∃ r, tr = [⟨.build, r⟩] := by
  rcases Steps.of_bind h with ⟨p', h1, -⟩ | ⟨tr1, tr2, p, h1, h2, rfl⟩
  · rcases Steps.of_call h1 with h2 | ⟨r, h2, -⟩
    · exact .inl h2
    · exact .inr ⟨r, h2⟩
  · cases h2
    rcases Steps.of_call h1 with rfl | ⟨r, rfl, -⟩
    · exact .inl rfl
    · exact .inr ⟨r, rfl⟩

/-- C42: nothing on disk changes, and what is returned is the pair just built, optimized. -/
theorem memory_result {ow : Bool} {fs fs' : FS W.G} {tr : Hist W.G} {x : Except Err (W.G × W.G)}
    (h : Run W.key F (buildFst W true ow) fs tr x fs') :
    (fs'.entry = fs.entry ∧ fs'.node = fs.node) ∧
      ∀ g, x = .ok g → ∃ p, fs'.built = p :: fs.built ∧ g = (W.opt p.1, W.opt p.2) := by
  have ok : ∀ {r fs1}, Sem W.key F .build fs r fs1 →
      (fs1.entry = fs.entry ∧ fs1.node = fs.node) ∧ ∀ p, r = .ok p → fs1.built = p :: fs.built := by
    rintro r fs1 (⟨p, rfl, rfl⟩ | ⟨-, rfl, x, rfl⟩ | ⟨-, rfl, r', p, rfl, rfl⟩)
    · exact ⟨⟨rfl, rfl⟩, by rintro p hp; cases hp; rfl⟩
    · exact ⟨⟨rfl, rfl⟩, by simp⟩
    · exact ⟨⟨rfl, rfl⟩, by simp⟩
  rcases Run.of_bind h with ⟨tr1, tr2, p, fs1, h1, h2, -⟩ | ⟨e, h1, rfl⟩
  · obtain ⟨-, h3⟩ := Run.of_call h1
    cases h2
    exact ⟨(ok h3).1, by rintro g hg; cases hg; exact ⟨p, (ok h3).2 p rfl, rfl⟩⟩
  · obtain ⟨-, h3⟩ := Run.of_call h1
    exact ⟨(ok h3).1, by simp⟩

example : ∃ tr x fs', Run Demo.world.key Demo.calm (buildFst Demo.world true false) Demo.empty
    tr x fs' ∧ (tr.length == 1) = true :=
  Demo.ends_run (c := Demo.chance (true, true)) rfl (Demo.allowed _ _) (by simp)
    (by decide +kernel)

end Verif.Cache
