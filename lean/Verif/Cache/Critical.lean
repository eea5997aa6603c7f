import Verif.Cache.Publish

/-
The locked part of `build_fst`, the lock-free part, and both together.
-/

namespace Verif.Cache

section
variable {G α : Type} {key : Key} {F : Faults} {Gd : FS G → FS G → Prop} {K : FS G → Prop}

/-- Waiting for the lock. -/
theorem Safe.acquire {fs : FS G} {Q : Bool → Except Err Unit → FS G → Prop}
    (hrefl : ∀ fs, Gd fs fs)
    (hok : ∀ fs1, Relation.ReflTransGen Gd fs fs1 → K fs1 → Q true (.ok ()) fs1)
    (herr : ∀ fs1 x, Relation.ReflTransGen Gd fs fs1 → Q false (.error x) fs1) :
    Safe key F Gd K (Prog.call .acquire) false fs Q := by
  intro fs1 h1 r fs2 h2 h3
  simp only [Bool.false_eq_true, if_false] at h1
  have h4 := Sem.same rfl h2
  subst h4
  cases r with
  | ok u => exact ⟨⟨hrefl _, (by simp), (by simp)⟩, hok _ h1 (h3 rfl)⟩
  | error x => exact ⟨⟨hrefl _, (by simp), (by simp)⟩, herr _ x h1⟩

/-- Giving the lock back. -/
theorem Safe.release {fs : FS G} {Q : Bool → Except Err Unit → FS G → Prop}
    (hrefl : ∀ fs, Gd fs fs) (hK : K fs) (hq : ∀ r, Q false r fs) :
    Safe key F Gd K (Prog.call .release) true fs Q := by
  intro fs1 h1 r fs2 h2 h3
  simp only [if_true] at h1
  have h4 := Sem.same rfl h2
  subst h4
  subst h1
  cases r with
  | ok u => exact ⟨⟨hrefl _, (by simp), fun _ _ => hK⟩, hq (.ok u)⟩
  | error x => exact ⟨⟨hrefl _, (by simp), fun _ _ => hK⟩, hq (.error x)⟩

end

variable {W : World} {F : Faults} {Gd : FS W.G → FS W.G → Prop} {K : FS W.G → Prop}
  {bs : List (W.G × W.G)}

/-- The final name stands for a directory that holds the graphs `g`. -/
def HoldsAt (W : World) (fs : FS W.G) (g : W.G × W.G) : Prop :=
  ∃ i es, fs.entry W.key.digest = some i ∧ fs.node i = .dir es ∧ NamesOk es ∧ Holds W es g

theorem build_safe {fs : FS W.G} (hrefl : ∀ fs, Gd fs fs)
    (hB : ∀ p, Gd fs { fs with built := p :: fs.built }) :
    Safe W.key F Gd K (Prog.call .build) true fs fun h' r fs' => h' = true ∧
      (fs' = fs ∨ ∃ p, fs' = { fs with built := p :: fs.built }) ∧
      ∀ p, r = .ok p → fs' = { fs with built := p :: fs.built } := by
  refine Safe.callHeld (by simp) (by simp) ?_
  intro r fs' hs
  rcases hs with ⟨p, rfl, rfl⟩ | ⟨-, rfl, x, rfl⟩ | ⟨-, rfl, r', p, rfl, rfl⟩
  · refine ⟨hB _, rfl, .inr ⟨p, rfl⟩, ?_⟩
    intro q hq
    cases hq
    rfl
  · exact ⟨hrefl _, rfl, .inl rfl, by simp⟩
  · exact ⟨hB _, rfl, .inr ⟨p, rfl⟩, by simp⟩

theorem same_build (fs : FS W.G) (p : W.G × W.G) :
    Same W fs { fs with built := p :: fs.built } :=
  ⟨fun _ _ => rfl, fun _ _ _ _ => rfl, rfl⟩

theorem Base.build (hk : W.key.Valid) {fs : FS W.G} (hb : Base W bs fs) (p : W.G × W.G) :
    Base W (p :: bs) { fs with built := p :: fs.built } :=
  ⟨hb.wf.trans (F := ⟨fun _ => True, fun _ => True⟩) (.build _ p),
    hb.log.trans (F := ⟨fun _ => True, fun _ => True⟩) hk hb.wf (.build _ p), by simp [hb.built]⟩

theorem Base.self {fs : FS W.G} (hb : Base W bs fs) : Base W fs.built fs :=
  ⟨hb.wf, hb.log, rfl⟩

/-- The body of `with bundle.lock()`. -/
theorem critical_safe (hk : W.key.Valid)
    (hT : ∀ fs fs', Trans W F fs fs' → fs'.built = fs.built → Gd fs fs')
    (hB : ∀ fs p, Gd fs { fs with built := p :: fs.built })
    {fs : FS W.G} (hb : Base W bs fs) (ow : Bool) :
    Safe W.key F Gd K (critical W ow) true fs fun h' r fs' => h' = true ∧ Base W fs'.built fs' ∧
      ∀ g, r = .ok g → HoldsAt W fs' g := by
  have hrefl : ∀ fs, Gd fs fs := fun fs => hT _ _ (.stay fs) rfl
  unfold critical
  refine Safe.bind (Safe.mono (recoverResiduals_safe hk hT hb) ?_)
  rintro h' r fs1 ⟨rfl, hb1, hc1⟩
  cases r with
  | error x => exact ⟨rfl, hb1.self, by simp⟩
  | ok u =>
    have hc1 := (hc1 u rfl).1
    simp only
    have decide : Safe W.key F Gd K (if ow then (.ret none : Prog W.G (Option (W.G × W.G))) else
        (loadPath W W.final).bind fun graphs =>
        match graphs with
        | some g => .ret (some g)
        | none => (removeInvalid W).bind fun _ => .ret none) true fs1
        fun h' r fs' => h' = true ∧ Base W bs fs' ∧ Ck W F fs' ∧
          ∀ g, r = .ok (some g) → HoldsAt W fs' g := by
      cases ow with
      | true => exact ⟨rfl, hb1, hc1, by simp⟩
      | false =>
        simp only [Bool.false_eq_true, if_false]
        refine Safe.bind (Safe.mono (loadPath_spec hrefl) ?_)
        rintro h' r fs' ⟨rfl, h2, h3, h4⟩
        replace h2 := h2.symm
        subst h2
        cases r with
        | error x => exact ⟨rfl, hb1, hc1, by simp⟩
        | ok gs =>
          cases gs with
          | some g =>
            refine ⟨rfl, hb1, hc1, ?_⟩
            intro g' hg'
            cases hg'
            exact h3 g rfl
          | none =>
            simp only
            refine Safe.bind (Safe.mono (removeInvalid_safe hk hT hb1 hc1 (h4 rfl)) ?_)
            rintro h' r fs' ⟨rfl, h5, h6⟩
            cases r with
            | error x => exact ⟨rfl, h5, h6, by simp⟩
            | ok _ => exact ⟨rfl, h5, h6, by simp⟩
    refine Safe.bind (Safe.mono decide ?_)
    rintro h' r fs2 ⟨rfl, hb2, hc2, h2⟩
    cases r with
    | error x => exact ⟨rfl, hb2.self, by simp⟩
    | ok found =>
      cases found with
      | some g =>
        refine ⟨rfl, hb2.self, ?_⟩
        intro g' hg'
        cases hg'
        exact h2 g rfl
      | none =>
        simp only
        refine Safe.bind (Safe.mono (build_safe hrefl (hB _)) ?_)
        rintro h' r fs3 ⟨rfl, h3, h4⟩
        have hb3 : Base W fs3.built fs3 := by
          rcases h3 with rfl | ⟨p, rfl⟩
          · exact hb2.self
          · exact (hb2.build hk p).self
        cases r with
        | error x => exact ⟨rfl, hb3, by simp⟩
        | ok p =>
          have h5 := h4 p rfl
          have hc3 : Ck W F fs3 := by
            rw [h5]
            exact hc2.same (same_build fs2 p)
          have hp : p ∈ fs3.built := by rw [h5]; exact List.mem_cons_self
          refine Safe.bind (Safe.callRead (by simp) (by simp) rfl hrefl ?_)
          intro r hs
          cases r with
          | error x => exact ⟨rfl, hb3, by simp⟩
          | ok fp =>
            simp only
            split
            · exact ⟨rfl, hb3, by simp⟩
            · refine Safe.bind (Safe.mono (publish_safe hk hT hb3 hc3 hp) ?_)
              rintro h' r fs4 ⟨rfl, hb4, -, -⟩
              cases r with
              | error x => exact ⟨rfl, hb4.self, by simp⟩
              | ok _ =>
                simp only
                refine Safe.bind (Safe.mono (loadPath_spec hrefl) ?_)
                rintro h' r fs5 ⟨rfl, h6, h7, -⟩
                replace h6 := h6.symm
                subst h6
                cases r with
                | error x => exact ⟨rfl, hb4.self, by simp⟩
                | ok gs =>
                  cases gs with
                  | none => exact ⟨rfl, hb4.self, by simp⟩
                  | some g =>
                    refine ⟨rfl, hb4.self, ?_⟩
                    intro g' hg'
                    cases hg'
                    exact h7 g rfl

/-- The graphs are one content that was there at the start or was written for one built pair. -/
def FromOne (W : World) (init : List (Name × Ent) → Prop) (fs : FS W.G) (g : W.G × W.G) : Prop :=
  ∃ o, Origin W init fs o ∧ Holds W o g

theorem FromOne.trans {init : List (Name × Ent) → Prop} {fs fs' : FS W.G} {g : W.G × W.G}
    (h : Trans W F fs fs') (hf : FromOne W init fs g) : FromOne W init fs' g := by
  obtain ⟨o, h1, h2⟩ := hf
  exact ⟨o, h1.mono h.built_sub, h2⟩

theorem Holds.sub {es o : List (Name × Ent)} (h : Sub es o) {g : W.G × W.G} (hg : Holds W es g) :
    Holds W o g := by
  obtain ⟨b, m, files, h1, h2, h3, h4, h5, h6, ⟨b1, md1, x1, h7, h8⟩, ⟨b2, md2, x2, h9, h10⟩⟩ := hg
  exact ⟨b, m, files, h _ _ h1, h2, h3, h4, h5, h6, ⟨b1, md1, x1, h _ _ h7, h8⟩,
    ⟨b2, md2, x2, h _ _ h9, h10⟩⟩

/-- `load` without the lock. -/
theorem loadPath_free (hk : W.key.Valid) {init : List (Name × Ent) → Prop}
    {fs : FS W.G} {n : Name} (hn : Readable W n) (hi : Inv W init fs)
    (hGd : ∀ fs fs', Gd fs fs' → Trans W F fs fs') (hrefl : ∀ fs, Gd fs fs) :
    Safe W.key F Gd K (loadPath W n) false fs fun h' r fs' => h' = false ∧ Inv W init fs' ∧
      ∀ g, r = .ok (some g) → FromOne W init fs' g := by
  have hinv : ∀ fs fs', Gd fs fs' → Inv W init fs → Inv W init fs' :=
    fun fs fs' h hI => hI.trans hk (hGd _ _ h)
  unfold loadPath
  refine Safe.tryExcept (Safe.bind (Safe.mono
    (openChain_safe (P := Inv W init) hrefl (fun _ => hinv) hi) ?_))
  rintro h' r fs1 ⟨rfl, hi1, h2⟩
  cases r with
  | error x =>
    simp only
    split <;> exact ⟨rfl, hi1, by simp⟩
  | ok fd =>
    obtain ⟨h3, es, h4⟩ := h2 fd rfl
    obtain ⟨o, ho, hsub⟩ := hi1.origin n fd es hn h3 h4
    have hq : Quiet W fs1 fd := by
      refine ⟨hi1.wf.lt _ _ h3, ?_⟩
      intro m hm hmi
      have := hi1.wf.inj _ _ _ h3 hmi
      subst this
      exact hn.not_tmp hk hm
    simp only
    refine Safe.mono (loadOpen_safe (o := o) (P := fun fs => Inv W init fs ∧ Quiet W fs fd ∧
      Sub (fs.ents fd) o ∧ Origin W init fs o) hrefl ?_ ?_ (fun fs h => h.2.2.1)) ?_
    · rintro - fs fs' h ⟨a1, a2, a3, a4⟩
      have ht := hGd _ _ h
      obtain ⟨a5, a6⟩ := ht.shrinks hk a1.wf fd a2
      exact ⟨a1.trans hk ht, a5, a6.trans a3, a4.mono ht.built_sub⟩
    · refine ⟨hi1, hq, ?_, ho⟩
      simp only [FS.ents, h4]
      exact hsub
    · rintro h' r fs2 ⟨rfl, ⟨a1, -, -, a4⟩, h5⟩
      cases r with
      | error x =>
        simp only
        split <;> exact ⟨rfl, a1, by simp⟩
      | ok gs =>
        refine ⟨rfl, a1, ?_⟩
        intro g hg
        exact ⟨o, a4, (h5 g hg).1⟩

/-- `withLock` around something safe. -/
theorem withLock_safe {α : Type} {body : Prog W.G α} {fs : FS W.G}
    {Q : Except Err α → FS W.G → Prop} (hrefl : ∀ fs, Gd fs fs)
    (hstable : ∀ r fs fs', Gd fs fs' → Q r fs → Q r fs')
    (hfail : ∀ fs1 x, Relation.ReflTransGen Gd fs fs1 → Q (.error x) fs1)
    (hany : ∀ x fs1 r, Q r fs1 → Q (.error x) fs1)
    (hbody : ∀ fs1, Relation.ReflTransGen Gd fs fs1 → K fs1 →
      Safe W.key F Gd K body true fs1 fun h' r fs' => h' = true ∧ K fs' ∧ Q r fs') :
    Safe W.key F Gd K (withLock W body) false fs fun h' r fs' => h' = false ∧ Q r fs' := by
  unfold withLock
  refine Safe.bind (Safe.callFree (by simp) rfl hrefl ?_)
  intro fs1 h1 r _
  cases r with
  | error x => exact ⟨rfl, hfail fs1 x h1⟩
  | ok _ =>
    refine Safe.bind (Safe.acquire hrefl ?_ ?_)
    · intro fs2 h2 hK2
      refine Safe.tryFinally (Safe.bind (Safe.callRead (by simp) (by simp) rfl hrefl ?_))
      intro r _
      have rel : ∀ (r : Except Err α) (fs3 : FS W.G), K fs3 → Q r fs3 →
          Safe W.key F Gd K (Prog.call .release) true fs3 fun h'' r' fs'' => h'' = false ∧
            (r' = .ok () → Q r fs'') ∧ ∀ e, r' = .error e → Q (.error e) fs'' := by
        intro r fs3 hK3 hQ3
        refine Safe.release hrefl hK3 ?_
        intro r'
        exact ⟨rfl, fun _ => hQ3, fun e _ => hany e _ _ hQ3⟩
      cases r with
      | error x =>
        refine Safe.mono (rel (.error x) fs2 hK2 (hfail fs2 x (h1.trans h2))) ?_
        rintro h'' r' fs'' ⟨h3, h4, h5⟩
        cases r' with
        | ok _ => exact ⟨h3, h4 rfl⟩
        | error e => exact ⟨h3, h5 e rfl⟩
      | ok _ =>
        refine Safe.mono (hbody fs2 (h1.trans h2) hK2) ?_
        rintro h' r fs3 ⟨rfl, h3, h4⟩
        refine Safe.mono (rel r fs3 h3 h4) ?_
        rintro h'' r' fs'' ⟨h5, h6, h7⟩
        cases r' with
        | ok _ => exact ⟨h5, h6 rfl⟩
        | error e => exact ⟨h5, h7 e rfl⟩
    · intro fs2 x h2
      exact ⟨rfl, hfail fs2 x (h1.trans h2)⟩

theorem rtg_keeps {I : FS W.G → Prop} (h : ∀ a b, Gd a b → I a → I b) {fs fs' : FS W.G}
    (hr : Relation.ReflTransGen Gd fs fs') (hi : I fs) : I fs' := by
  induction hr with
  | refl => exact hi
  | tail _ h1 ih => exact h _ _ h1 ih

/-- `build_fst` with a cache, among others that do the same. -/
theorem buildCached_safe (hk : W.key.Valid) {init : List (Name × Ent) → Prop} {fs : FS W.G}
    (hi : Inv W init fs) (hl : LogInv W fs) (ow : Bool) :
    Safe W.key F (Trans W F) (fun _ => True) (buildCached W ow) false fs fun h' r fs' =>
      h' = false ∧ ∀ g, r = .ok g → FromOne W init fs' g := by
  have hrefl : ∀ fs, Trans W F fs fs := .stay
  have hkeep : ∀ a b, Trans W F a b → Inv W init a ∧ LogInv W a → Inv W init b ∧ LogInv W b :=
    fun a b h hI => ⟨hI.1.trans hk h, hI.2.trans hk hI.1.wf h⟩
  have locked : ∀ fs1, Inv W init fs1 ∧ LogInv W fs1 →
      Safe W.key F (Trans W F) (fun _ => True) (withLock W (critical W ow)) false fs1
        fun h' r fs' => h' = false ∧ ∀ g, r = .ok g → FromOne W init fs' g := by
    intro fs1 hI1
    refine withLock_safe (Q := fun r fs' => ∀ g, r = .ok g → FromOne W init fs' g) hrefl
      (fun r a b h hq g hg => (hq g hg).trans h) (fun _ _ _ => by simp) (fun _ _ _ _ => by simp) ?_
    intro fs2 h2 _
    have hI2 := rtg_keeps hkeep h2 hI1
    refine Safe.mono (Safe.inv hkeep hI2 (critical_safe hk (fun _ _ h _ => h) (fun _ _ => .build _ _)
      (bs := fs2.built) ⟨hI2.1.wf, hI2.2, rfl⟩ ow)) ?_
    rintro h' r fs3 ⟨⟨h3, -, h4⟩, hI3, -⟩
    refine ⟨h3, trivial, ?_⟩
    intro g hg
    obtain ⟨i, es, h5, h6, -, h7⟩ := h4 g hg
    obtain ⟨o, h8, h9⟩ := hI3.origin _ _ _ (.inl rfl) h5 h6
    exact ⟨o, h8, h7.sub h9⟩
  unfold buildCached
  cases ow with
  | true => exact locked fs ⟨hi, hl⟩
  | false =>
    simp only [Bool.false_eq_true, if_false]
    refine Safe.bind (Safe.mono (Safe.inv hkeep ⟨hi, hl⟩
      (loadPath_free hk (.inl rfl) hi (fun _ _ h => h) hrefl)) ?_)
    rintro h' r fs1 ⟨⟨rfl, -, h2⟩, hI1⟩
    cases r with
    | error x => exact ⟨rfl, by simp⟩
    | ok gs =>
      cases gs with
      | none => exact locked fs1 hI1
      | some g =>
        refine ⟨rfl, ?_⟩
        intro g' hg'
        cases hg'
        exact h2 g rfl

end Verif.Cache
