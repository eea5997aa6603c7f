import Verif.Cache.Path

namespace Verif.Cache

/-- A component that stands for one step downwards. -/
structure Plain1 (c : Str) : Prop where
  ne : c ≠ []
  dot : c ≠ ['.']
  dotdot : c ≠ ['.', '.']
  slash : '/' ∉ c

/-- An absolute path without links, `.` and `..`. -/
def Resolved (p : List Str) : Prop := ∀ c ∈ p, Plain1 c

theorem splitSlash_ne (s : Str) : splitSlash s ≠ [] := by
  cases s with
  | nil => simp [splitSlash]
  | cons c r =>
    rw [splitSlash]
    split
    · simp
    · split <;> simp

theorem splitSlash_plain {a : Str} (ha : '/' ∉ a) : splitSlash a = [a] := by
  induction a with
  | nil => rfl
  | cons c a ih =>
    simp only [List.mem_cons, not_or] at ha
    rw [splitSlash, if_neg (fun h => ha.1 h.symm), ih ha.2]

theorem splitSlash_append {a : Str} (ha : '/' ∉ a) (r : Str) :
    splitSlash (a ++ '/' :: r) = a :: splitSlash r := by
  induction a with
  | nil => simp [splitSlash]
  | cons c a ih =>
    simp only [List.mem_cons, not_or] at ha
    rw [List.cons_append, splitSlash, if_neg (fun h => ha.1 h.symm), ih ha.2]

theorem splitSlash_joinSlash : ∀ {l : List Str}, l ≠ [] → (∀ c ∈ l, '/' ∉ c) →
    splitSlash (joinSlash l) = l
  | [], h, _ => (h rfl).elim
  | [a], _, h => splitSlash_plain (h a (by simp))
  | a :: b :: rest, _, h => by
    rw [joinSlash, splitSlash_append (h a (by simp)),
      splitSlash_joinSlash (by simp) fun c hc => h c (by simp [hc])]

theorem splitSlash_mem (s : Str) : ∀ c ∈ splitSlash s, '/' ∉ c := by
  induction s with
  | nil => simp [splitSlash]
  | cons x r ih =>
    rw [splitSlash]
    split
    · intro c hc
      simp only [List.mem_cons] at hc
      rcases hc with rfl | hc
      · simp
      · exact ih c hc
    · rename_i hx
      split
      · rename_i h
        exact (splitSlash_ne r h).elim
      · rename_i h t he
        rw [he] at ih
        intro c hc
        simp only [List.mem_cons] at hc
        rcases hc with rfl | hc
        · have := ih h (by simp)
          simp only [List.mem_cons, not_or]
          exact ⟨fun e => hx e.symm, this⟩
        · exact ih c (by simp [hc])

theorem Plain1.keeps {c : Str} (h : Plain1 c) : keeps c = true := by
  simp [Verif.Cache.keeps, Verif.Cache.dot, h.ne, h.dot]

theorem filter_join {l : List Str} (h : Resolved l) :
    (splitSlash (joinSlash l)).filter keeps = l := by
  cases l with
  | nil => rfl
  | cons a l =>
    rw [splitSlash_joinSlash (by simp) fun c hc => (h c hc).slash]
    exact List.filter_eq_self.2 fun c hc => (h c hc).keeps

theorem joinSlash_inj {l m : List Str} (hl : Resolved l) (hm : Resolved m)
    (h : joinSlash l = joinSlash m) : l = m := by
  rw [← filter_join hl, h, filter_join hm]

theorem splitSlash_slashes (n : Nat) (s : Str) :
    (splitSlash (List.replicate n '/' ++ s)).filter keeps = (splitSlash s).filter keeps := by
  induction n with
  | zero => rfl
  | succ n ih =>
    rw [List.replicate_succ, List.cons_append, splitSlash, if_pos rfl]
    simpa [List.filter_cons, keeps] using ih

theorem slashes_pos {p : Str} (h : isAbs p = true) : 1 ≤ slashes p := by
  cases p with
  | nil => simp [isAbs] at h
  | cons c r =>
    simp only [isAbs, List.head?_cons, decide_eq_true_eq, Option.some.injEq] at h
    subst h
    unfold slashes
    split <;> simp_all

/-- The position after walking from the root along the segments: `.` and empty segments stay, `..`
goes up (and stays at the root), everything else goes down. -/
inductive Walk : List Str → List Str → List Str → Prop where
  | done (pos : List Str) : Walk pos [] pos
  | stay {pos cs dst c} (h : c = [] ∨ c = ['.']) (w : Walk pos cs dst) : Walk pos (c :: cs) dst
  | up {pos cs dst} (w : Walk pos.dropLast cs dst) : Walk pos (['.', '.'] :: cs) dst
  | down {pos cs dst c} (h : c ≠ []) (h1 : c ≠ ['.']) (h2 : c ≠ ['.', '.'])
      (w : Walk (pos ++ [c]) cs dst) : Walk pos (c :: cs) dst

theorem Walk.unique {a cs t t'} (h : Walk a cs t) (h' : Walk a cs t') : t = t' := by
  induction h with
  | done => cases h'; rfl
  | stay h w ih =>
    cases h' with
    | stay _ w' => exact ih w'
    | up w' => simp at h
    | down h1 h2 _ _ => rcases h with h | h <;> contradiction
  | up w ih =>
    cases h' with
    | stay h _ => simp at h
    | up w' => exact ih w'
    | down _ _ h _ => exact (h rfl).elim
  | down h h1 h2 w ih =>
    cases h' with
    | stay h3 _ => rcases h3 with h3 | h3 <;> contradiction
    | up _ => exact (h2 rfl).elim
    | down _ _ _ w' => exact ih w'

theorem normComps_walk : ∀ (cs acc : List Str), dotdot ∉ acc →
    Walk acc.reverse cs (normComps true cs acc) ∧
    ((∀ c ∈ acc, Plain1 c) → (∀ c ∈ cs, '/' ∉ c) → Resolved (normComps true cs acc))
  | [], acc, _ => ⟨.done _, fun h _ c hc => h c (by simpa [normComps] using hc)⟩
  | c :: cs, acc, ha => by
    rw [normComps]
    split
    · rename_i h
      obtain ⟨h1, h2⟩ := normComps_walk cs acc ha
      exact ⟨.stay h h1, fun h3 h4 => h2 h3 fun d hd => h4 d (by simp [hd])⟩
    · rename_i h
      push Not at h
      split
      · rename_i h1
        have h2 : c ≠ dotdot := by
          rcases h1 with h1 | ⟨h1, -⟩ | h1
          · exact h1
          · simp at h1
          · cases acc with
            | nil => simp at h1
            | cons x acc => simp at h1; simp [h1] at ha
        obtain ⟨h3, h4⟩ := normComps_walk cs (c :: acc) (by
          simp only [List.mem_cons, not_or]
          exact ⟨fun e => h2 e.symm, ha⟩)
        refine ⟨.down h.1 h.2 h2 (by simpa using h3), fun h5 h6 => h4 ?_ ?_⟩
        · intro d hd
          simp only [List.mem_cons] at hd
          rcases hd with rfl | hd
          · exact ⟨h.1, h.2, h2, h6 d (by simp)⟩
          · exact h5 d hd
        · exact fun d hd => h6 d (by simp [hd])
      · rename_i h1
        push Not at h1
        obtain ⟨rfl, -⟩ := h1
        obtain ⟨h3, h4⟩ := normComps_walk cs acc.tail fun e => ha (List.mem_of_mem_tail e)
        refine ⟨.up ?_, fun h5 h6 => h4 (fun d hd => h5 d (List.mem_of_mem_tail hd))
          fun d hd => h6 d (by simp [hd])⟩
        rw [List.dropLast_reverse]
        exact h3

theorem normpath_abs {p : Str} (h : isAbs p = true) : ∃ dst, Walk [] (splitSlash p) dst ∧ Resolved dst ∧
    normpath p = List.replicate (slashes p) '/' ++ joinSlash dst := by
  have h1 := slashes_pos h
  obtain ⟨h2, h3⟩ := normComps_walk (splitSlash p) [] (by simp)
  refine ⟨_, h2, h3 (by simp) (splitSlash_mem p), ?_⟩
  have h4 : p ≠ [] := by rintro rfl; simp [isAbs] at h
  have h5 : (decide (slashes p ≠ 0)) = true := by simp; omega
  have h6 : ∀ x : Str, List.replicate (slashes p) '/' ++ x ≠ [] := by
    intro x hx
    have := congrArg List.length hx
    simp at this
    omega
  rw [normpath, if_neg h4]
  simp only [h5]
  rw [if_neg (h6 _)]

theorem walk_resolved {l : List Str} (h : Resolved l) : ∀ a : List Str, Walk a l (a ++ l) := by
  induction l with
  | nil =>
    intro a
    simpa using Walk.done a
  | cons c l ih =>
    intro a
    have h1 := h c (by simp)
    refine .down h1.ne h1.dot h1.dotdot ?_
    have := ih (fun d hd => h d (by simp [hd])) (a ++ [c])
    simpa using this

theorem walk_fspath {l : List Str} (h : Resolved l) : Walk [] (splitSlash (fspath l)) l := by
  rw [fspath, splitSlash, if_pos rfl]
  refine .stay (.inl rfl) ?_
  cases l with
  | nil => exact .stay (.inl rfl) (.done _)
  | cons a l =>
    rw [splitSlash_joinSlash (by simp) fun c hc => (h c hc).slash]
    exact walk_resolved h []

theorem slashes_fspath {l : List Str} (h : Resolved l) : slashes (fspath l) = 1 := by
  have : ∀ r, joinSlash l ≠ '/' :: r := by
    intro r hr
    cases l with
    | nil => simp [joinSlash] at hr
    | cons a l =>
      have h1 := h a (by simp)
      obtain ⟨x, a', rfl⟩ : ∃ x a', a = x :: a' := by
        cases a with
        | nil => exact (h1.ne rfl).elim
        | cons x a' => exact ⟨x, a', rfl⟩
      have h2 : x = '/' := by
        cases l with
        | nil => simp [joinSlash] at hr; exact hr.1
        | cons b l => simp [joinSlash] at hr; exact hr.1
      exact h1.slash (by simp [h2])
  unfold fspath
  cases hj : joinSlash l with
  | nil => rfl
  | cons x r =>
    have h3 : x ≠ '/' := fun e => this r (by rw [hj, e])
    unfold slashes
    split <;> simp_all

theorem abspath_fspath (cwd : Str) {l : List Str} (h : Resolved l) :
    abspath cwd (fspath l) = fspath l := by
  have h1 : isAbs (fspath l) = true := rfl
  obtain ⟨dst, h2, -, h3⟩ := normpath_abs h1
  rw [abspath, if_pos h1, h3, h2.unique (walk_fspath h), slashes_fspath h]
  rfl

theorem common_eq {a b : List Str} : common a b = a ↔ a <+: b := by
  induction a generalizing b with
  | nil => simp [common]
  | cons x a ih =>
    cases b with
    | nil => simp [common]
    | cons y b =>
      rw [common]
      split
      · rename_i h
        subst h
        simp [ih]
      · rename_i h
        simp [h]

theorem common_mem {a b : List Str} : ∀ c ∈ common a b, c ∈ a := by
  induction a generalizing b with
  | nil => simp [common]
  | cons x a ih =>
    cases b with
    | nil => simp [common]
    | cons y b =>
      rw [common]
      split
      · intro c hc
        simp only [List.mem_cons] at hc ⊢
        rcases hc with h | h
        · exact .inl h
        · exact .inr (ih c h)
      · simp

/-- `_assert_under_root` passes exactly for the paths that lead into the root. -/
theorem underRoot_iff (cwd : Str) {root : List Str} (hr : Resolved root) {p : Str}
    (hp : isAbs p = true) :
    underRoot cwd (fspath root) p = true ↔ ∃ dst, Walk [] (splitSlash p) dst ∧ root <+: dst := by
  obtain ⟨dst, h1, h2, h3⟩ := normpath_abs hp
  have h4 : ∃ n, slashes p = n + 1 := ⟨slashes p - 1, by have := slashes_pos hp; omega⟩
  obtain ⟨n, h4⟩ := h4
  have h5 : isAbs (List.replicate (slashes p) '/' ++ joinSlash dst) = true := by
    rw [h4]
    rfl
  have h6 : (splitSlash (fspath root)).filter keeps = root := by
    have := splitSlash_slashes 1 (joinSlash root)
    rw [filter_join hr] at this
    exact this
  have key : underRoot cwd (fspath root) p = true ↔ root <+: dst := by
    rw [underRoot, abspath_fspath cwd hr, abspath, if_pos hp, h3, commonpath]
    have h7 : isAbs (fspath root) = true := rfl
    rw [h5, h7, if_neg (by simp), if_pos rfl, splitSlash_slashes, filter_join h2, h6]
    simp only [decide_eq_true_eq, Option.some.injEq, fspath, List.singleton_append,
      List.cons.injEq, true_and]
    constructor
    · intro h
      have := joinSlash_inj (fun c hc => hr c (common_mem c hc)) hr h
      exact common_eq.1 this
    · intro h
      rw [common_eq.2 h]
  rw [key]
  constructor
  · exact fun h => ⟨dst, h1, h⟩
  · rintro ⟨dst', h8, h9⟩
    rwa [h1.unique h8]

theorem child_plain {p : List Str} {c : Str} (h : Plain1 c) : child p c = p ++ [c] := by
  have h1 : isAbs c = false := by
    cases c with
    | nil => rfl
    | cons x r =>
      simp only [isAbs, List.head?_cons, decide_eq_false_iff_not, Option.some.injEq]
      rintro rfl
      exact h.slash (by simp)
  rw [child, if_neg (by simp [h1]), splitSlash_plain h.slash]
  simp [h.keeps]

theorem prefixOk_iff {s : Str} : prefixOk s = true ↔
    s ≠ [] ∧ (∀ c ∈ s, safeChar c = true) ∧ s ≠ ['.'] ∧ s ≠ ['.', '.'] := by
  unfold prefixOk
  simp only [Bool.and_eq_true, decide_eq_true_eq, List.all_eq_true]
  show ((s ≠ ['.'] ∧ s ≠ ['.', '.']) ∧ s ≠ [] ∧ ∀ c ∈ s, safeChar c = true) ∧ pathName s = s ↔ _
  constructor
  · rintro ⟨⟨⟨h1, h2⟩, h3, h4⟩, -⟩
    exact ⟨h3, h4, h1, h2⟩
  · rintro ⟨h3, h4, h1, h2⟩
    refine ⟨⟨⟨h1, h2⟩, h3, h4⟩, ?_⟩
    have h5 : '/' ∉ s := fun h => by have := h4 _ h; simp [safeChar] at this
    rw [pathName, splitSlash_plain h5]
    have : keeps s = true := by simp [keeps, dot, h3, h1]
    simp [this]

theorem prefixOk_plain {s : Str} (h : prefixOk s = true) : Plain1 s := by
  obtain ⟨h1, h2, h3, h4⟩ := prefixOk_iff.1 h
  exact ⟨h1, h3, h4, fun h5 => by have := h2 _ h5; simp [safeChar] at this⟩

end Verif.Cache
