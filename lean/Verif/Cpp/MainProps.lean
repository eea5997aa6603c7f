import Verif.Cpp.ApiSpec
import Verif.Cpp.Lemmas
import Verif.Cli.Props

/-
C87: the program processor_main.
-/

namespace Verif.Cpp.Api

open Verif.Cpp
open Verif.Cpp.Api.Spec

/-! ### Lines -/

theorem getlines_more {t c : Bytes} (ht : 10 ∉ t) : getlines (t ++ 10 :: c) = t :: getlines c := by
  have h1 : (t ++ 10 :: c).takeWhile (· ≠ 10) = t := by
    rw [List.takeWhile_append_of_pos (fun b hb => by simpa using fun e : b = 10 => ht (e ▸ hb))]
    simp
  have h2 : (t ++ 10 :: c).dropWhile (· ≠ 10) = 10 :: c := by
    rw [List.dropWhile_append_of_pos (fun b hb => by simpa using fun e : b = 10 => ht (e ▸ hb))]
    simp
  rw [getlines, dif_neg (by simp), h1, h2]
  rfl

theorem getlines_last {t : Bytes} (h0 : t ≠ []) (ht : 10 ∉ t) : getlines t = [t] := by
  have h1 : t.takeWhile (· ≠ 10) = t := by
    rw [List.takeWhile_eq_self_iff]
    exact fun b hb => by simpa using fun e : b = 10 => ht (e ▸ hb)
  have h2 : t.dropWhile (· ≠ 10) = [] := by
    rw [List.dropWhile_eq_nil_iff]
    exact fun b hb => by simpa using fun e : b = 10 => ht (e ▸ hb)
  rw [getlines, dif_neg h0, h1, h2]
  rw [show ([] : Bytes).drop 1 = [] from rfl, getlines, dif_pos rfl]

/-- **C87.** The program takes from a file its lines, none missing, none joined: a line ends before a line feed or at
the end of the file. -/
theorem C87_lines (s : Bytes) (ts : List Bytes) : Lines s ts ↔ ts = getlines s := by
  constructor
  · intro h
    induction h with
    | nil => rw [getlines, dif_pos rfl]
    | last h0 ht => exact (getlines_last h0 ht).symm
    | more ht _ ih => rw [getlines_more ht, ih]
  · rintro rfl
    induction hn : s.length using Nat.strongRecOn generalizing s with
    | ind n ih =>
      by_cases h0 : s = []
      · subst h0; rw [getlines, dif_pos rfl]; exact .nil
      · by_cases h10 : 10 ∈ s
        · obtain ⟨t, c, rfl, ht⟩ := List.eq_append_cons_of_mem h10
          rw [getlines_more ht]
          exact .more ht (ih c.length (by rw [← hn]; simp; omega) c rfl)
        · rw [getlines_last h0 h10]
          exact .last h0 h10

/-! ### What is printed -/

/-- **C87.** When nothing fails, two lines are printed for every text: the tagged text and the verbalization of exactly
that. The texts are that of `--text`, unless it is empty, and then the lines of the file. -/
theorem C87_prints (files : Files) (content : Bytes → Bytes) (f : Flags) (ty : ParseType) (tag verb : Bytes → Bytes)
    (ht : f.tagger ≠ []) (hv : f.verbalizer ≠ []) (hty : parseTypeOf f.tagger = some ty) (ts ls : List Bytes)
    (hts : ts = (if f.text = [] then [] else [f.text]) ++ if f.file = [] then [] else ls) (hls : Lines (content f.file) ls)
    (h1 : ∀ x ∈ ts, Proc.tag ⟨ty, files f.tagger, files f.verbalizer⟩ x = .ok (tag x))
    (h2 : ∀ x ∈ ts, Proc.verbalize ⟨ty, files f.tagger, files f.verbalizer⟩ (tag x) = .ok (verb (tag x))) :
    mainProgram files content f = (ts.flatMap fun x => [tag x, verb (tag x)], none) := by
  rw [mainProgram, if_neg (by simp [ht, hv])]
  simp only [Proc.new, hty]
  rw [(C87_lines _ _).1 hls] at hts
  rw [← hts]
  clear hts
  induction ts with
  | nil => rfl
  | cons x ts ih =>
    have := ih (fun y hy => h1 y (by simp [hy])) (fun y hy => h2 y (by simp [hy]))
    simp only [printTexts, printText, h1 x (by simp), h2 x (by simp), this]
    simp

/-- **C87.** When something fails, the texts before are printed completely and in order, of the text that failed at most
the tagged text, and nothing after it. -/
theorem C87_failure (p : Proc) (ts : List Bytes) (out : List Bytes) (e : Stop) (h : printTexts p ts = (out, some e)) :
    ∃ before x after part, ts = before ++ x :: after ∧
      (∃ blocks, out = blocks.flatten ++ part ∧ List.Forall₂ (fun x b => ∃ t y, p.tag x = .ok t ∧ p.verbalize t = .ok y ∧ b = [t, y])
        before blocks) ∧
      (p.tag x = .error e ∧ part = [] ∨ ∃ t, p.tag x = .ok t ∧ p.verbalize t = .error e ∧ part = [t]) := by
  induction ts generalizing out with
  | nil => cases h
  | cons x ts ih =>
    rw [printTexts] at h
    unfold printText at h
    cases hx : p.tag x with
    | error e' =>
      simp only [hx] at h
      cases h
      exact ⟨[], x, ts, [], rfl, ⟨[], rfl, .nil⟩, .inl ⟨hx, rfl⟩⟩
    | ok t =>
      cases ht : p.verbalize t with
      | error e' =>
        simp only [hx, ht] at h
        cases h
        exact ⟨[], x, ts, [t], rfl, ⟨[], rfl, .nil⟩, .inr ⟨t, hx, ht, rfl⟩⟩
      | ok y =>
        simp only [hx, ht] at h
        obtain ⟨h1, h2⟩ := Prod.mk.inj h
        obtain ⟨before, z, after, part, e1, ⟨blocks, e2, e3⟩, e4⟩ := ih (printTexts p ts).1 (by rw [← h2])
        refine ⟨x :: before, z, after, part, by rw [e1]; rfl, ⟨[t, y] :: blocks, ?_, .cons ⟨t, y, hx, ht, rfl⟩ e3⟩, e4⟩
        rw [← h1, e2]
        simp

/-! ### The Python program and the C++ program -/

theorem enc_feed {c : Char} (h : c ≠ '\n') : (10 : UInt8) ∉ enc c := by
  have low : ∀ k : Fin 128, k.val ≠ 10 → UInt8.ofNat k.val ≠ 10 := by decide +kernel
  have cont : ∀ k : Fin 64, UInt8.ofNat (k.val + 0x80) ≠ 10 := by decide +kernel
  have l2 : ∀ k : Fin 32, UInt8.ofNat (k.val + 0xc0) ≠ 10 := by decide +kernel
  have l3 : ∀ k : Fin 16, UInt8.ofNat (k.val + 0xe0) ≠ 10 := by decide +kernel
  have l4 : ∀ k : Fin 8, UInt8.ofNat (k.val + 0xf0) ≠ 10 := by decide +kernel
  have hv : c.val.toNat ≠ 10 := fun h0 => h (Char.toNat_inj.1 h0)
  unfold enc String.utf8EncodeChar
  dsimp only
  split
  · rw [List.mem_singleton]
    exact fun h => low ⟨c.val.toNat, by omega⟩ hv h.symm
  · split
    · simp only [List.mem_cons, List.not_mem_nil, or_false, not_or]
      exact ⟨fun h => l2 ⟨c.val.toNat / 64 % 0x20, by omega⟩ h.symm,
        fun h => cont ⟨c.val.toNat % 0x40, by omega⟩ h.symm⟩
    · split
      · simp only [List.mem_cons, List.not_mem_nil, or_false, not_or]
        exact ⟨fun h => l3 ⟨c.val.toNat / 4096 % 0x10, by omega⟩ h.symm,
          fun h => cont ⟨c.val.toNat / 64 % 0x40, by omega⟩ h.symm,
          fun h => cont ⟨c.val.toNat % 0x40, by omega⟩ h.symm⟩
      · simp only [List.mem_cons, List.not_mem_nil, or_false, not_or]
        exact ⟨fun h => l4 ⟨c.val.toNat / 262144 % 0x08, by omega⟩ h.symm,
          fun h => cont ⟨c.val.toNat / 4096 % 0x40, by omega⟩ h.symm,
          fun h => cont ⟨c.val.toNat / 64 % 0x40, by omega⟩ h.symm,
          fun h => cont ⟨c.val.toNat % 0x40, by omega⟩ h.symm⟩

theorem encAll_feed {t : List Char} (h : '\n' ∉ t) : 10 ∉ encAll t := by
  intro hm
  obtain ⟨c, hc, hb⟩ := List.mem_flatMap.1 hm
  exact enc_feed (by rintro rfl; exact h hc) hb

/-- **C87.** For a file without carriage returns the C++ program takes the lines that the Python program takes. -/
theorem C87_python (c : List Char) (hc : '\r' ∉ c) :
    getlines (encAll c) = ((Cli.fileLines c).map Cli.withoutLineEnding).map encAll := by
  have key : ∀ {c ts}, Cli.HasLines c ts → '\r' ∉ c → Lines (encAll c) (ts.map encAll) := by
    intro c ts h
    induction h with
    | nil => intro _; exact .nil
    | @last t h0 ht =>
      intro _
      refine .last (fun e => ?_) (encAll_feed ht.1)
      cases t with
      | nil => exact h0 rfl
      | cons d t =>
        rw [encAll_cons] at e
        exact enc_ne_nil d (List.append_eq_nil_iff.1 e).1
    | @more t e c ts ht he _ _ ih =>
      intro hr
      have : e = ['\n'] := by
        rcases he with rfl | rfl | rfl
        · rfl
        · exact absurd (by simp) hr
        · exact absurd (by simp) hr
      subst this
      have e1 : encAll (t ++ ['\n'] ++ c) = encAll t ++ 10 :: encAll c := by
        rw [encAll_append, encAll_append]
        have : encAll ['\n'] = [10] := by decide +kernel
        rw [this]; simp
      rw [e1]
      exact .more (encAll_feed ht.1) (ih fun h => hr (by simp [h]))
  exact ((C87_lines _ _).1 (key (Cli.file_texts c) hc)).symm

example : '\r' ∉ "一\n\nb".toList ∧ getlines (encAll "一\n\nb".toList) = [encAll ['一'], [], encAll ['b']] := by
  refine ⟨by decide +kernel, ?_⟩
  rw [C87_python _ (by decide +kernel)]
  decide +kernel

/-- **C87.** With carriage returns they differ: the C++ program keeps them in the text. -/
theorem C87_carriage : getlines (encAll "a\r\n".toList) = [encAll "a\r".toList] ∧
    (Cli.fileLines "a\r\n".toList).map Cli.withoutLineEnding = ["a".toList] := by
  refine ⟨?_, by decide +kernel⟩
  have : encAll "a\r\n".toList = encAll "a\r".toList ++ 10 :: [] := by decide +kernel
  rw [this, getlines_more (by decide +kernel), getlines, dif_pos rfl]

end Verif.Cpp.Api
