import Verif.Cpp.ApiSpec
import Verif.Cpp.Runtime

/-
C86: clients of the C interface.
-/

namespace Verif.Cpp.Api

open Verif.Cpp
open Verif.Cpp.Api.Spec

/-! ### Strings -/

theorem cut_free {t : Bytes} (h : 0 ∉ t) : cut t = t := by
  induction t with
  | nil => rfl
  | cons b t ih =>
    rw [cut, if_neg (fun e => h (by simp [e])), ih fun hm => h (by simp [hm])]

theorem cString_nul (s rest : Bytes) : cString (s ++ 0 :: rest) = .ok (cut s) := by
  unfold cString
  rw [if_pos (by simp)]
  congr 1
  induction s with
  | nil => simp [cut]
  | cons b s ih =>
    by_cases hb : b = 0
    · simp [cut, hb]
    · rw [cut, if_neg hb, List.cons_append, List.takeWhile_cons_of_pos (by simpa using hb), ih]

/-! ### Memory stands for what the client has -/

/-- An object stands for a thing. -/
inductive Rep (files : Files) : Obj → Thing → Prop
  | proc {tp vp : Bytes} {ty : ParseType} : parseTypeOf tp = some ty →
      Rep files (.proc ⟨ty, files tp, files vp⟩) (.processor tp vp)
  | chars {s : Bytes} : Rep files (.chars (s ++ [0])) (.text (cut s))

/-- The heap stands for what the client has, object by object. -/
inductive Stands (files : Files) : Heap → Owned → Prop
  | nil : Stands files [] []
  | cons {a : Nat} {ob : Obj} {th : Thing} {h : Heap} {o : Owned} : Rep files ob th → (∀ th', (a, th') ∉ o) → Stands files h o →
      Stands files ((a, ob) :: h) ((a, th) :: o)

variable {files : Files} {al : Allocator}

theorem Stands.addresses {h : Heap} {o : Owned} (s : Stands files h o) : h.map (·.1) = o.map (·.1) := by
  induction s with
  | nil => rfl
  | cons _ _ _ ih => simp [ih]

theorem Stands.mem {h : Heap} {o : Owned} (s : Stands files h o) {a : Nat} : (∃ ob, (a, ob) ∈ h) ↔ ∃ th, (a, th) ∈ o := by
  have := s.addresses
  have e : a ∈ h.map (·.1) ↔ a ∈ o.map (·.1) := by rw [this]
  simpa using e

theorem Stands.lookup {h : Heap} {o : Owned} (s : Stands files h o) {a : Nat} {th : Thing} (hm : (a, th) ∈ o) :
    ∃ ob, h.lookup a = some ob ∧ Rep files ob th := by
  induction s with
  | nil => cases hm
  | @cons a' ob' th' h o hr hf _ ih =>
    rcases List.mem_cons.1 hm with e | hm'
    · obtain ⟨rfl, rfl⟩ := Prod.mk.inj e
      exact ⟨_, by simp, hr⟩
    · obtain ⟨ob, h1, h2⟩ := ih hm'
      have hne : (a == a') = false := by
        rw [beq_eq_false_iff_ne]
        rintro rfl
        exact hf _ hm'
      exact ⟨ob, by rw [List.lookup_cons, hne]; exact h1, h2⟩

theorem Stands.new {h : Heap} {o : Owned} (s : Stands files h o) (th : Thing) : (al.pick h, th) ∉ o := by
  intro hm
  obtain ⟨ob, hob⟩ := s.mem.2 ⟨th, hm⟩
  exact al.fresh h ob hob

theorem Stands.release {h : Heap} {o : Owned} (s : Stands files h o) (a : Nat) :
    Stands files (Api.release h a) (o.filter fun e => e.1 ≠ a) := by
  induction s with
  | nil => exact .nil
  | @cons a' ob th h o hr hf _ ih =>
    unfold Api.release at ih ⊢
    by_cases e : a' = a
    · simpa [e] using ih
    · rw [List.filter_cons_of_pos (by simpa using e), List.filter_cons_of_pos (by simpa using e)]
      exact .cons hr (fun th' hm => hf th' (List.mem_of_mem_filter hm)) ih

theorem Stands.read {h : Heap} {o : Owned} (s : Stands files h o) {i : Arg} {x : Bytes} (g : Gives o i x) :
    i.read h = .ok x ∧ i ≠ .null := by
  cases g with
  | buffer hx => exact ⟨by rw [Arg.read, cString_nul, cut_free hx], by simp⟩
  | own hm =>
    obtain ⟨ob, h1, h2⟩ := s.lookup hm
    cases h2 with
    | chars => exact ⟨by simp only [Arg.read, h1]; exact cString_nul _ _, by simp⟩

/-- The functions of the processor give the answers. -/
theorem run_answers {tp vp x y : Bytes} {ty : ParseType} (ht : parseTypeOf tp = some ty) {op : Op}
    (h : Answers files tp vp op x y) : op.run ⟨ty, files tp, files vp⟩ x = .ok y := by
  induction h with
  | tagNone => rfl
  | tag hx hf => simp [Op.run, Proc.tag, hx, hf]
  | verbalizeNone => rfl
  | verbalize hx hty hf hv =>
    rw [ht] at hty
    obtain rfl := Option.some.inj hty
    simp [Op.run, Proc.verbalize, hx, hf, hv]
  | normalize _ _ ih1 ih2 =>
    simp only [Op.run] at ih1 ih2 ⊢
    simp only [Proc.normalize, ih1, ih2]

/-- One call that the client may make. -/
theorem step_does {h : Heap} {o o' : Owned} {c : Call} {r : Option Nat} (s : Stands files h o) (d : Does files o c r o') :
    ∃ r' h' o'', step files al h c = .ok (r', h') ∧ Does files o c r' o'' ∧ Stands files h' o'' := by
  cases d with
  | createNull hn => exact ⟨none, h, o, by rw [step, if_pos hn], .createNull hn, s⟩
  | @create t v tp vp a g1 g2 hty ha =>
    obtain ⟨ty, hty⟩ := hty
    refine ⟨some (al.pick h), (al.pick h, .proc ⟨ty, files tp, files vp⟩) :: h, _, ?_, .create g1 g2 ⟨ty, hty⟩ s.new,
      .cons (.proc hty) s.new s⟩
    rw [step, if_neg (by simp [(s.read g1).2, (s.read g2).2])]
    simp only [(s.read g1).1, (s.read g2).1, Proc.new, hty]
  | destroyNull => exact ⟨none, h, _, rfl, .destroyNull, s⟩
  | @destroy a tp vp hm =>
    obtain ⟨ob, h1, h2⟩ := s.lookup hm
    cases h2 with
    | proc hty => exact ⟨none, _, _, by rw [step]; simp only [h1], .destroy hm, s.release a⟩
  | @processNull op hd i hn =>
    refine ⟨none, h, o, ?_, .processNull hn, s⟩
    rcases hn with rfl | rfl
    · rfl
    · cases hd <;> simp [step]
  | @process op hd a i tp vp x y hm g hy ha =>
    obtain ⟨ob, h1, h2⟩ := s.lookup hm
    cases h2 with
    | proc hty =>
      refine ⟨some (al.pick h), (al.pick h, .chars (y ++ [0])) :: h, _, ?_, .process hm g hy s.new, .cons .chars s.new s⟩
      rw [step]
      simp only [if_neg (s.read g).2, h1, (s.read g).1, run_answers hty hy, copyToCString]
  | freeNull => exact ⟨none, h, _, rfl, .freeNull, s⟩
  | @free a t hm =>
    obtain ⟨ob, h1, h2⟩ := s.lookup hm
    cases h2 with
    | chars => exact ⟨none, _, _, by rw [step]; simp only [h1], .free hm, s.release a⟩

/-! ### Clients -/

/-- The first `n` calls of a client: the calls, the pointers returned and the heap. -/
def play (files : Files) (al : Allocator) (k : Client) : Nat → Except Stop (List Call × List (Option Nat) × Heap)
  | 0 => .ok ([], [], [])
  | n + 1 =>
    match play files al k n with
    | .error e => .error e
    | .ok (cs, rs, h) =>
      match k rs with
      | none => .ok (cs, rs, h)
      | some c =>
        match step files al h c with
        | .error e => .error e
        | .ok (r, h') => .ok (cs ++ [c], rs ++ [r], h')

/-- **C86.** A client that keeps to the rules never runs into undefined behaviour, an abort or an exception, however
many calls it makes and whatever addresses the allocator picks. Every call returns what the rules say. The memory in
use is exactly what the client has not given back, and every string it has reads as the text that was returned, no
matter what has been called since. -/
theorem C86_client (files : Files) (al : Allocator) (k : Client) (hk : Disciplined files k) (n : Nat) :
    ∃ cs rs h o, play files al k n = .ok (cs, rs, h) ∧ History files k cs rs o ∧ h.map (·.1) = o.map (·.1) ∧
      (o.map (·.1)).Nodup ∧ ∀ a t, (a, .text t) ∈ o → (Arg.heap a).read h = .ok t := by
  have key : ∃ cs rs h o, play files al k n = .ok (cs, rs, h) ∧ History files k cs rs o ∧ Stands files h o := by
    induction n with
    | zero => exact ⟨[], [], [], [], rfl, .start, .nil⟩
    | succ n ih =>
      obtain ⟨cs, rs, h, o, h1, h2, h3⟩ := ih
      rw [play, h1]
      cases hc : k rs with
      | none => exact ⟨cs, rs, h, o, by simp only [hc], h2, h3⟩
      | some c =>
        obtain ⟨r, o', d⟩ := hk cs rs o h2 c hc
        obtain ⟨r', h', o'', h4, h5, h6⟩ := step_does (al := al) h3 d
        exact ⟨_, _, h', o'', by simp only [hc, h4], .call h2 hc h5, h6⟩
  obtain ⟨cs, rs, h, o, h1, h2, h3⟩ := key
  refine ⟨cs, rs, h, o, h1, h2, h3.addresses, ?_, fun a t hm => (h3.read (.own hm)).1⟩
  clear h1 h2
  induction h3 with
  | nil => exact List.nodup_nil
  | cons _ hf _ ih =>
    rw [List.map_cons, List.nodup_cons]
    refine ⟨?_, ih⟩
    simpa using hf

/-- **C86.** So nothing leaks: when a client has given back what it has, no memory is in use. -/
theorem C86_no_leak (files : Files) (al : Allocator) (k : Client) (hk : Disciplined files k) (n : Nat) (cs : List Call)
    (rs : List (Option Nat)) (h : Heap) (hp : play files al k n = .ok (cs, rs, h)) :
    (∀ o, History files k cs rs o → o = []) → h = [] := by
  intro ho
  obtain ⟨cs', rs', h', o, h1, h2, h3, _⟩ := C86_client files al k hk n
  rw [hp] at h1
  cases h1
  rw [ho o h2] at h3
  exact List.map_eq_nil_iff.1 h3

/-! ### What is returned -/

theorem verbalize_free {ty : ParseType} {f : Bytes → Bytes} {x y : Bytes} (h : Cpp.verbalize ty f x = .ok y) : 0 ∉ y := by
  unfold Cpp.verbalize at h
  split at h
  · cases h; simp
  · split at h
    · cases h
    · cases h; simp

/-- **C86.** The whole result of `Verbalize` and `Normalize` reaches the client: no NUL is in it. -/
theorem C86_whole {tp vp x y : Bytes} {op : Op} (hop : op ≠ .tag) (h : Answers files tp vp op x y) : cut y = y := by
  have key : ∀ {x y : Bytes}, Answers files tp vp .verbalize x y → 0 ∉ y := by
    intro x y h
    cases h with
    | verbalizeNone => simp
    | verbalize _ _ _ hv => exact verbalize_free hv
  cases h with
  | tagNone => exact absurd rfl hop
  | tag => exact absurd rfl hop
  | verbalizeNone => rfl
  | verbalize _ _ _ hv => exact cut_free (verbalize_free hv)
  | normalize _ h2 => exact cut_free (key h2)

theorem encAll_free {x : List Char} (h : '\x00' ∉ x) : 0 ∉ encAll x := by
  intro hm
  obtain ⟨c, hc, hb⟩ := List.mem_flatMap.1 hm
  exact enc_zero c (by rintro rfl; exact h hc) hb

/-- **C86.** Normalizing a text through the C interface gives a string that reads as what `Normalize` returns for it;
the text may have any characters but NUL. -/
theorem C86_normalize (h : Heap) (hd : Nat) (ty : ParseType) (f g : Bytes → Bytes)
    (hl : h.lookup hd = some (.proc ⟨ty, some f, some g⟩)) (x : List Char) (hx : '\x00' ∉ x) (rest y : Bytes)
    (hy : Cpp.normalize ty f g (encAll x) = .ok y) :
    ∃ a h', step files al h (.process .normalize (some hd) (.buffer (encAll x ++ 0 :: rest))) = .ok (some a, h') ∧
      (Arg.heap a).read h' = .ok y := by
  have e1 : (Arg.buffer (encAll x ++ 0 :: rest)).read h = .ok (encAll x) := by
    rw [Arg.read, cString_nul, cut_free (encAll_free hx)]
  have e2 : Op.run .normalize ⟨ty, some f, some g⟩ (encAll x) = .ok y := by
    have ht : Proc.tag ⟨ty, some f, some g⟩ (encAll x) = .ok (Cpp.tag f (encAll x)) := by
      unfold Proc.tag Cpp.tag
      split <;> rfl
    unfold Cpp.normalize at hy
    simp only [Op.run, Proc.normalize, ht]
    unfold Proc.verbalize
    split
    · rename_i e
      rw [e] at hy
      simpa [Cpp.verbalize] using hy
    · simp only [hy]
  refine ⟨al.pick h, (al.pick h, .chars (y ++ [0])) :: h, ?_, ?_⟩
  · rw [step]
    simp only [hl, e1, e2, copyToCString]
    simp
  · have : 0 ∉ y := verbalize_free hy
    simp only [Arg.read, List.lookup_cons, beq_self_eq_true]
    rw [cString_nul, cut_free this]

/-! ### The header says more than is true -/

/-- **C86.** The header promises null for a processor that cannot be made. That never happens: with two paths the
function returns a pointer or ends the process, and it ends the process exactly when no pipeline is named in the path of
the tagger. -/
theorem C86_create (h : Heap) (tp vp rest rest' : Bytes) (ht : 0 ∉ tp) (hv : 0 ∉ vp) :
    (parseTypeOf tp = none → step files al h (.create (.buffer (tp ++ 0 :: rest)) (.buffer (vp ++ 0 :: rest'))) = .error .abort) ∧
    (parseTypeOf tp ≠ none → ∃ a h', step files al h (.create (.buffer (tp ++ 0 :: rest)) (.buffer (vp ++ 0 :: rest'))) =
      .ok (some a, h')) := by
  constructor
  · intro hn
    simp [step, Arg.read, cString_nul, cut_free ht, cut_free hv, Proc.new, hn]
  · intro hn
    obtain ⟨ty, hty⟩ := Option.ne_none_iff_exists'.1 hn
    simp [step, Arg.read, cString_nul, cut_free ht, cut_free hv, Proc.new, hty]

/-- **C86.** In particular a pointer is returned when the tagger cannot be read, and tagging any text with it is
undefined. -/
theorem C86_missing (h : Heap) (tp vp rest rest' : Bytes) (ht : 0 ∉ tp) (hv : 0 ∉ vp) (hn : parseTypeOf tp ≠ none)
    (hf : files tp = none) : ∃ a h', step files al h (.create (.buffer (tp ++ 0 :: rest)) (.buffer (vp ++ 0 :: rest'))) =
      .ok (some a, h') ∧ ∀ b x rest'', 0 ∉ b :: x →
        step files al h' (.process .tag (some a) (.buffer (b :: x ++ 0 :: rest''))) = .error .undefined := by
  obtain ⟨ty, hty⟩ := Option.ne_none_iff_exists'.1 hn
  refine ⟨al.pick h, (al.pick h, .proc ⟨ty, files tp, files vp⟩) :: h, ?_, ?_⟩
  · simp [step, Arg.read, cString_nul, cut_free ht, cut_free hv, Proc.new, hty]
  · intro b x rest'' hx
    have e : (Arg.buffer (b :: x ++ 0 :: rest'')).read ((al.pick h, .proc ⟨ty, files tp, files vp⟩) :: h) = .ok (b :: x) := by
      rw [Arg.read, cString_nul, cut_free hx]
    rw [step]
    simp only [e, List.lookup_cons, beq_self_eq_true, if_true]
    simp [Op.run, Proc.tag, hf]

/-- **C86.** `wetext_verbalize` catches nothing: for a text that is no token stream an exception leaves the C
function. -/
theorem C86_throws (h : Heap) (p : Proc) (a : Nat) (hl : h.lookup a = some (.proc p)) :
    step files al h (.process .verbalize (some a) (.buffer [120, 32, 120, 0])) = .error .thrown := by
  have e1 : (Arg.buffer [120, 32, 120, 0]).read h = .ok [120, 32, 120] := by
    rw [Arg.read]; decide +kernel
  have e2 : parse [120, 32, 120] = .error .invalidArgument := by decide +kernel
  have e3 : ∀ orders, reorder orders [120, 32, 120] = .error .invalidArgument := by
    intro orders; unfold reorder; rw [e2]
  rw [step]
  simp only [hl, e1]
  have e4 : Op.run .verbalize p [120, 32, 120] = .error .thrown := by
    simp only [Op.run, Proc.verbalize, Cpp.verbalize, e3]
    cases p.verbalizer <;> rfl
  rw [e4]
  simp

/-! ### A client -/

/-- An allocator: the least address above all in use. -/
def above : Allocator where
  pick h := (h.map (·.1)).foldr max 0 + 1
  fresh h o := by
    intro hm
    have : ∀ (l : List (Nat × Obj)) e, e ∈ l → e.1 ≤ (l.map (·.1)).foldr max 0 := by
      intro l e he
      induction l with
      | nil => cases he
      | cons d l ih =>
        simp only [List.map_cons, List.foldr_cons]
        rcases List.mem_cons.1 he with rfl | he
        · exact Nat.le_max_left _ _
        · exact (ih he).trans (Nat.le_max_right _ _)
    have := this h _ hm
    simp only at this
    omega

/-- A client that makes a processor, normalizes a text, and gives everything back. -/
def sample : Client
  | [] => some (.create (.buffer (lit "zh_tn_tagger.fst" ++ 0 :: [])) (.buffer (lit "zh_tn_verbalizer.fst" ++ 0 :: [])))
  | [some p] => some (.process .normalize (some p) (.buffer (lit "5" ++ 0 :: [])))
  | [_, some y] => some (.free (some y))
  | [some p, _, _] => some (.destroy (some p))
  | _ => none

/-- Files whose machines tag everything as one character and verbalize it as "five". -/
def sampleFiles : Files := fun path =>
  if path = lit "zh_tn_tagger.fst" then some fun _ => lit "char { value: \"5\" }" else some fun _ => lit "five"

theorem gives_buffer {o : Owned} {x t rest : Bytes} (hx : 0 ∉ x) (h : Gives o (.buffer (x ++ 0 :: rest)) t) : t = x := by
  generalize e : Arg.buffer (x ++ 0 :: rest) = i at h
  cases h with
  | own => cases e
  | @buffer _ rest' ht =>
    have e' := Arg.buffer.inj e
    have h1 := cString_nul x rest
    rw [e', cString_nul, cut_free ht, cut_free hx] at h1
    exact Except.ok.inj h1

theorem sample_answers {y : Bytes} : Answers sampleFiles (lit "zh_tn_tagger.fst") (lit "zh_tn_verbalizer.fst") .normalize (lit "5") y ↔
    y = lit "five" := by
  have hne : lit "5" ≠ [] := by decide
  have hne' : lit "char { value: \"5\" }" ≠ [] := by decide
  have hf : sampleFiles (lit "zh_tn_tagger.fst") = some fun _ => lit "char { value: \"5\" }" := by unfold sampleFiles; rw [if_pos rfl]
  have hg : sampleFiles (lit "zh_tn_verbalizer.fst") = some fun _ => lit "five" := by
    unfold sampleFiles; rw [if_neg (by decide +kernel)]
  have hty : parseTypeOf (lit "zh_tn_tagger.fst") = some .zhTn := by decide +kernel
  have ht : ∀ {t}, Answers sampleFiles (lit "zh_tn_tagger.fst") (lit "zh_tn_verbalizer.fst") .tag (lit "5") t →
      t = lit "char { value: \"5\" }" := by
    intro t h
    generalize e : lit "5" = x at h
    cases h with
    | tagNone => exact absurd e hne
    | tag hx hf' =>
      rw [hf] at hf'
      cases hf'
      unfold Cpp.tag
      rw [if_neg hx]
  have hv : Cpp.verbalize .zhTn (fun _ => lit "five") (lit "char { value: \"5\" }") = .ok (lit "five") := by decide +kernel
  constructor
  · intro h
    cases h with
    | normalize h1 h2 =>
      rw [ht h1] at h2
      generalize e : lit "char { value: \"5\" }" = x at h2
      cases h2 with
      | verbalizeNone => exact absurd e hne'
      | verbalize hx hty' hg' hv' =>
        subst e
        rw [hty] at hty'
        rw [hg] at hg'
        cases hty'
        cases hg'
        rw [hv] at hv'
        exact (Except.ok.inj hv').symm
  · rintro rfl
    have := Answers.tag (files := sampleFiles) (vp := lit "zh_tn_verbalizer.fst") hne hf
    rw [Cpp.tag, if_neg hne] at this
    exact .normalize this (.verbalize hne' hty hg hv)

/-- Where the client can be. -/
theorem sample_states {cs : List Call} {rs : List (Option Nat)} {o : Owned} (h : History sampleFiles sample cs rs o) :
    (rs = [] ∧ o = []) ∨
    (∃ p, rs = [some p] ∧ o = [(p, .processor (lit "zh_tn_tagger.fst") (lit "zh_tn_verbalizer.fst"))]) ∨
    (∃ p y, p ≠ y ∧ rs = [some p, some y] ∧
      o = [(y, .text (lit "five")), (p, .processor (lit "zh_tn_tagger.fst") (lit "zh_tn_verbalizer.fst"))]) ∨
    (∃ p y, rs = [some p, some y, none] ∧ o = [(p, .processor (lit "zh_tn_tagger.fst") (lit "zh_tn_verbalizer.fst"))]) ∨
    (∃ p y, rs = [some p, some y, none, none] ∧ o = []) := by
  have z1 : 0 ∉ lit "zh_tn_tagger.fst" := by decide +kernel
  have z2 : 0 ∉ lit "zh_tn_verbalizer.fst" := by decide +kernel
  have z3 : 0 ∉ lit "5" := by decide +kernel
  induction h with
  | start => exact .inl ⟨rfl, rfl⟩
  | @call cs rs o o' c r _ hc d ih =>
    rcases ih with ⟨rfl, rfl⟩ | ⟨p, rfl, rfl⟩ | ⟨p, y, hne, rfl, rfl⟩ | ⟨p, y, rfl, rfl⟩ | ⟨p, y, rfl, rfl⟩
    · cases hc
      cases d with
      | createNull hn => simp at hn
      | create g1 g2 =>
        rw [gives_buffer z1 g1, gives_buffer z2 g2]
        exact .inr (.inl ⟨_, rfl, rfl⟩)
    · cases hc
      cases d with
      | processNull hn => simp at hn
      | @process _ _ a _ _ _ _ _ hm g hy hf =>
        rw [gives_buffer z3 g] at hy
        rw [List.mem_singleton] at hm
        cases hm
        rw [sample_answers.1 hy]
        refine .inr (.inr (.inl ⟨p, a, ?_, rfl, by rw [cut_free (by decide +kernel)]⟩))
        rintro rfl
        exact hf _ List.mem_cons_self
    · cases hc
      cases d with
      | free hm => exact .inr (.inr (.inr (.inl ⟨p, y, rfl, by simp [hne]⟩)))
    · cases hc
      cases d with
      | destroy hm => exact .inr (.inr (.inr (.inr ⟨p, y, rfl, by simp⟩)))
    · cases hc

/-- The client keeps to the rules, so `C86_client` speaks about it. -/
theorem sample_disciplined : Disciplined sampleFiles sample := by
  intro cs rs o h c hc
  rcases sample_states h with ⟨rfl, rfl⟩ | ⟨p, rfl, rfl⟩ | ⟨p, y, hne, rfl, rfl⟩ | ⟨p, y, rfl, rfl⟩ | ⟨p, y, rfl, rfl⟩
  · cases hc
    exact ⟨_, _, .create (a := 0) (.buffer (by decide +kernel)) (.buffer (by decide +kernel)) ⟨.zhTn, by decide +kernel⟩ (by simp)⟩
  · cases hc
    exact ⟨_, _, .process (a := p + 1) (List.mem_singleton.2 rfl) (.buffer (by decide +kernel)) (sample_answers.2 rfl) (by simp)⟩
  · cases hc
    exact ⟨_, _, .free List.mem_cons_self⟩
  · cases hc
    exact ⟨_, _, .destroy (List.mem_singleton.2 rfl)⟩
  · cases hc

/-- It ends with no memory in use. -/
example : ((play sampleFiles above sample 4).toOption.map fun r => (r.2.1, r.2.2.length)) =
    some ([some 1, some 2, none, none], 0) := by decide +kernel

end Verif.Cpp.Api
