/-
C75: complete runs of the double loop with the modelled training.
-/
import Verif.Props.C74_Trained
import Verif.Props.C42_State

namespace Fossil
open Spec

/-! ### sizes of concatenated data -/

/-- The number of samples of a label (0 if absent). -/
def sizeOf' {P : Type} (S : Dict String (List P)) (l : String) : ℕ := ((Dict.get? S l).getD []).length

theorem catValues_length {P : Type} : ∀ (S : Dict String (List P)), (Dict.keys S).Nodup → (catValues S).length = ((Dict.keys S).map (sizeOf' S)).sum := by
  intro S
  induction S with
  | nil => intro _; rfl
  | cons e S ih =>
    obtain ⟨k, p⟩ := e
    intro h
    have h' : (k :: Dict.keys S).Nodup := h
    rw [List.nodup_cons] at h'
    have e1 : (catValues ((k, p) :: S)).length = p.length + (catValues S).length := by simp [catValues, Dict.values]
    have e2 : (Dict.keys ((k, p) :: S)).map (sizeOf' ((k, p) :: S)) = p.length :: (Dict.keys S).map (sizeOf' S) := by
      show sizeOf' ((k, p) :: S) k :: (Dict.keys S).map (sizeOf' ((k, p) :: S)) = _
      congr 1
      · simp [sizeOf', Dict.get?]
      · refine List.map_congr_left fun l hl => ?_
        have : k ≠ l := fun e => h'.1 (e ▸ hl)
        simp [sizeOf', Dict.get?, this]
    rw [e1, e2, List.sum_cons, ih h'.2]

theorem labels_le_total {P : Type} {S : Dict String (List P)} {L : List String} (hS : (Dict.keys S).Nodup) (hL : L.Nodup) (hsub : ∀ l ∈ L, l ∈ Dict.keys S) :
    (L.map (sizeOf' S)).sum ≤ (catValues S).length := by
  rw [catValues_length S hS]
  obtain ⟨M, hp, hs⟩ := List.subperm_of_subset hL hsub
  rw [← (hp.map (sizeOf' S)).sum_eq]
  exact (hs.map (sizeOf' S)).sum_le_sum (fun _ _ => Nat.zero_le _)

theorem labels_eq_total {P : Type} {S : Dict String (List P)} {L : List String} (hS : (Dict.keys S).Nodup) (hL : L.Nodup) (hsub : ∀ l, l ∈ L ↔ l ∈ Dict.keys S) :
    (L.map (sizeOf' S)).sum = (catValues S).length := by
  rw [catValues_length S hS]
  exact (((List.perm_ext_iff_of_nodup hL hS).2 hsub).map _).sum_eq

theorem catLabels_total {P : Type} {S : Dict String (List P)} : ∀ {L : List String}, (∀ l ∈ L, l ∈ Dict.keys S) →
    ∃ r, catLabels S L = .ok r ∧ r.length = (L.map (sizeOf' S)).sum := by
  intro L
  induction L with
  | nil => intro _; exact ⟨[], rfl, rfl⟩
  | cons l L ih =>
    intro h
    obtain ⟨r, h1, h2⟩ := ih (fun l' hl' => h l' (List.mem_cons_of_mem _ hl'))
    obtain ⟨p, hp⟩ := Option.isSome_iff_exists.1 (Dict.get?_isSome_iff.2 (h l (List.mem_cons_self ..)))
    have e : Dict.get S l = .ok p := by unfold Dict.get; rw [hp]
    refine ⟨p ++ r, by simp only [catLabels, e, h1, Bind.bind, Except.bind, pure, Except.pure], ?_⟩
    simp [h2, sizeOf', hp]

theorem slice_length {α : Type} {i j : ℕ} {l : List α} (h : j ≤ l.length) : (slice i j l).length = j - i := by
  simp [slice, h]

theorem roaAcc_isOk (llo : Bool) (V Vdot : List ℝ) (h : Vdot ≠ []) : ∃ a, roaAcc llo V Vdot = .ok a := by
  have : Vdot.length ≠ 0 := by simpa using h
  unfold roaAcc percent
  rw [if_neg this, if_neg this]
  split <;> exact ⟨_, rfl⟩

theorem initUnsafe_isOk {m : ℝ} {Bi Bu : List ℝ} (h : Bi ≠ [] ∨ Bu ≠ []) : ∃ q, initUnsafeAcc m Bi Bu = .ok q := initUnsafe_total h

theorem barrierAcc_isOk (sym : Bool) (Bi Bu Bd Bdotd : List ℝ) (h : Bi ≠ [] ∨ Bu ≠ []) : ∃ a, barrierAcc sym Bi Bu Bd Bdotd = .ok a := by
  obtain ⟨q, hq⟩ := initUnsafe_total (m := 0) h
  unfold barrierAcc
  rw [hq]
  simp only [Bind.bind, Except.bind, pure, Except.pure]
  split <;> exact ⟨_, rfl⟩

theorem rwsAcc_isOk (Bi Bu Bd Bdotd : List ℝ) (h : Bi ≠ [] ∨ Bu ≠ []) : ∃ a, rwsAcc Bi Bu Bd Bdotd = .ok a := by
  obtain ⟨q, hq⟩ := initUnsafe_total (m := 0) h
  unfold rwsAcc
  rw [hq]
  simp only [Bind.bind, Except.bind, pure, Except.pure]
  split <;> exact ⟨_, rfl⟩

theorem ne_nil_of_pos {α : Type} {l : List α} (h : 0 < l.length) : l ≠ [] := by
  intro e; subst e; simp at h

section
variable {Θ P : Type}

/-- A training pass of `SafeROA.learn` returns, whatever the order of the data dictionary. -/
theorem safeRoaPass_total (llo sym : Bool) (v b : Values Θ P) (f : Option (Θ → P → P)) (S Sdot : Dict String (List P)) (θ : Θ) (hnd : (Dict.keys S).Nodup)
    (hlab : ∀ l ∈ [XD, XI, XU], l ∈ Dict.keys S) (hne : ∀ l p, Dict.get? S l = some p → p ≠ [])
    (htot : f = none → (catValues Sdot).length = (catValues S).length) : ∃ a, safeRoaPass llo sym v b f S Sdot θ = .ok a := by
  have get : ∀ l ∈ Dict.keys S, ∃ p, Dict.get? S l = some p ∧ Dict.get S l = .ok p ∧ 0 < p.length := by
    intro l hl
    obtain ⟨p, hp⟩ := Option.isSome_iff_exists.1 (Dict.get?_isSome_iff.2 hl)
    exact ⟨p, hp, by unfold Dict.get; rw [hp], List.length_pos_of_ne_nil (hne l p hp)⟩
  obtain ⟨pd, hd, gd, nd⟩ := get XD (hlab _ (by simp))
  obtain ⟨pi, hi, gi, ni⟩ := get XI (hlab _ (by simp))
  obtain ⟨pu, hu, gu, nu⟩ := get XU (hlab _ (by simp))
  obtain ⟨sdot, hs, hsl⟩ : ∃ sdot, samplesDot f θ (catValues S) (.ok (catValues Sdot)) = .ok sdot ∧ sdot.length = (catValues S).length := by
    cases f with
    | none => exact ⟨_, rfl, htot rfl⟩
    | some f => exact ⟨_, rfl, by simp⟩
  obtain ⟨r0, r1, hr, h01, h1le, hd1⟩ : ∃ r0 r1, ((Dict.get? S XR = none ∧ r0 = 0 ∧ r1 = pd.length) ∨
      ∃ r, Dict.get? S XR = some r ∧ r0 = pd.length ∧ r1 = pd.length + r.length) ∧ r0 < r1 ∧ r1 + pi.length + pu.length ≤ (catValues S).length ∧ pd.length ≤ r1 := by
    cases hR : Dict.get? S XR with
    | none =>
      refine ⟨0, pd.length, Or.inl ⟨rfl, rfl, rfl⟩, nd, ?_, le_rfl⟩
      have := labels_le_total (L := [XD, XI, XU]) hnd (by decide) hlab
      simp only [List.map_cons, List.map_nil, List.sum_cons, List.sum_nil, sizeOf', hd, hi, hu, Option.getD_some] at this
      omega
    | some r =>
      have hrpos : 0 < r.length := List.length_pos_of_ne_nil (hne _ _ hR)
      refine ⟨pd.length, pd.length + r.length, Or.inr ⟨r, rfl, rfl, rfl⟩, by omega, ?_, by omega⟩
      have := labels_le_total (L := [XD, XR, XI, XU]) hnd (by decide) (by
        intro l hl
        simp only [List.mem_cons, List.not_mem_nil, or_false] at hl
        rcases hl with rfl | rfl | rfl | rfl
        · exact hlab _ (by simp)
        · exact Dict.get?_isSome_iff.1 (by rw [hR]; rfl)
        · exact hlab _ (by simp)
        · exact hlab _ (by simp))
      simp only [List.map_cons, List.map_nil, List.sum_cons, List.sum_nil, sizeOf', hd, hi, hu, hR, Option.getD_some] at this
      omega
  unfold safeRoaPass
  have l1 : (slice r0 r1 (catValues S)).length = r1 - r0 := slice_length (by omega)
  have l2 : (slice r0 r1 sdot).length = r1 - r0 := slice_length (by omega)
  obtain ⟨la, hla⟩ := roaAcc_isOk llo ((slice r0 r1 (catValues S)).map (v.val θ)) (List.zipWith (v.lie θ) (slice r0 r1 (catValues S)) (slice r0 r1 sdot))
    (ne_nil_of_pos (by simp [l1, l2]; omega))
  have l3 : (slice r1 (r1 + pi.length) ((catValues S).map (b.val θ))).length = pi.length := by
    rw [slice_length (by simp; omega)]; omega
  obtain ⟨ba, hba⟩ := barrierAcc_isOk sym (slice r1 (r1 + pi.length) ((catValues S).map (b.val θ)))
    (slice (r1 + pi.length) (r1 + pi.length + pu.length) ((catValues S).map (b.val θ))) (slice 0 pd.length ((catValues S).map (b.val θ)))
    (slice 0 pd.length (List.zipWith (b.lie θ) (catValues S) sdot)) (Or.inl (ne_nil_of_pos (by omega)))
  refine ⟨(la, ba.1, ba.2), ?_⟩
  rcases hr with ⟨hR, rfl, rfl⟩ | ⟨r, hR, rfl, rfl⟩ <;>
    simp only [gd, gi, gu, hR, hs, Bind.bind, Except.bind, pure, Except.pure, getAll, l1, l2, hsl, if_true, hla, hba]

/-- A training pass of `ReachAvoidRemain.learn` returns, whatever the order of the data dictionary, if the data labels are the required ones. -/
theorem rarPass_total (sym : Bool) (v b : Values Θ P) (f : Option (Θ → P → P)) (S Sdot : Dict String (List P)) (θ : Θ)
    (hlab : ∀ l ∈ [XD, XI, XU, XG, XF, XNF], l ∈ Dict.keys S) (hne : ∀ l p, Dict.get? S l = some p → p ≠ [])
    (htot : f = none → (catValues Sdot).length = ([XD, XI, XU, XG, XF, XNF].map (sizeOf' S)).sum) : ∃ a, rarPass sym v b f S Sdot θ = .ok a := by
  have get : ∀ l ∈ Dict.keys S, ∃ p, Dict.get? S l = some p ∧ Dict.get S l = .ok p ∧ 0 < p.length := by
    intro l hl
    obtain ⟨p, hp⟩ := Option.isSome_iff_exists.1 (Dict.get?_isSome_iff.2 hl)
    exact ⟨p, hp, by unfold Dict.get; rw [hp], List.length_pos_of_ne_nil (hne l p hp)⟩
  obtain ⟨pd, hd, gd, nd⟩ := get XD (hlab _ (by simp))
  obtain ⟨pi, hi, gi, ni⟩ := get XI (hlab _ (by simp))
  obtain ⟨pu, hu, gu, nu⟩ := get XU (hlab _ (by simp))
  obtain ⟨pg, hg, gg, ng⟩ := get XG (hlab _ (by simp))
  obtain ⟨pf, hf, gf, nf⟩ := get XF (hlab _ (by simp))
  obtain ⟨pn, hn, gn, nn⟩ := get XNF (hlab _ (by simp))
  obtain ⟨samples, hsm, hsml⟩ := catLabels_total hlab
  obtain ⟨sdot, hs, hsl⟩ : ∃ sdot, samplesDot f θ samples (.ok (catValues Sdot)) = .ok sdot ∧ sdot.length = samples.length := by
    cases f with
    | none => exact ⟨_, rfl, by rw [htot rfl, hsml]⟩
    | some f => exact ⟨_, rfl, by simp⟩
  simp only [List.map_cons, List.map_nil, List.sum_cons, List.sum_nil, sizeOf', hd, hi, hu, hg, hf, hn, Option.getD_some] at hsml
  have l3 : (slice pd.length (pd.length + pi.length) (samples.map (v.val θ))).length = pi.length := by
    rw [slice_length (by simp; omega)]; omega
  have l4 : (slice (pd.length + pi.length + pu.length) (pd.length + pi.length + pu.length + pg.length) (samples.map (b.val θ))).length = pg.length := by
    rw [slice_length (by simp; omega)]; omega
  obtain ⟨a, ha⟩ := rwsAcc_isOk (slice pd.length (pd.length + pi.length) (samples.map (v.val θ)))
    (slice (pd.length + pi.length) (pd.length + pi.length + pu.length) (samples.map (v.val θ))) (slice 0 pd.length (samples.map (v.val θ)))
    (slice 0 pd.length (List.zipWith (v.lie θ) samples sdot)) (Or.inl (ne_nil_of_pos (by omega)))
  obtain ⟨c, hc⟩ := barrierAcc_isOk sym
    (slice (pd.length + pi.length + pu.length) (pd.length + pi.length + pu.length + pg.length) (samples.map (b.val θ)))
    (slice (pd.length + pi.length + pu.length + pg.length + pf.length) (pd.length + pi.length + pu.length + pg.length + pf.length + pn.length) (samples.map (b.val θ)))
    (slice (pd.length + pi.length + pu.length) (pd.length + pi.length + pu.length + pg.length + pf.length + pn.length) (samples.map (b.val θ)))
    (slice (pd.length + pi.length + pu.length) (pd.length + pi.length + pu.length + pg.length + pf.length + pn.length) (List.zipWith (b.lie θ) samples sdot))
    (Or.inl (ne_nil_of_pos (by omega)))
  refine ⟨(a, c), ?_⟩
  unfold rarPass
  simp only [gd, gi, gu, gg, gf, gn, hsm, hs, Bind.bind, Except.bind, pure, Except.pure, getAll, hsl, if_true, ha, hc]

/-- `SafeROA.learn` returns. -/
theorem safeRoaLearn_total (llo sym : Bool) (v b : Values Θ P) (out : Θ → P → ℝ) (f : Option (Θ → P → P)) (step : ℕ → Θ → Θ) (S Sdot : Dict String (List P)) (θ : Θ)
    (hnd : (Dict.keys S).Nodup) (hlab : ∀ l ∈ [XD, XI, XU], l ∈ Dict.keys S) (hne : ∀ l p, Dict.get? S l = some p → p ≠ []) (hlen : S.length = Sdot.length)
    (htot : f = none → (catValues Sdot).length = (catValues S).length) : ∃ n beta, safeRoaLearn llo sym v b out f step S Sdot θ = .ok (afterSteps step n θ, n, beta) := by
  obtain ⟨n, hn, -⟩ := onceLoop_exact (k := 2) (by norm_num) (step := step) (θ := θ)
    (check := fun t (_ : Unit) θ => do
      let a ← safeRoaPass llo sym v b f S Sdot θ
      return (decide (1 < t) && decide (a.1 = 100) && decide (a.2.1 = 100) && decide (999/10 ≤ a.2.2), ()))
    (C := fun m => ∀ a, safeRoaPass llo sym v b f S Sdot (afterSteps step m θ) = .ok a → a.1 = 100 ∧ a.2.1 = 100 ∧ 999/10 ≤ a.2.2) (by
      intro m
      obtain ⟨a, ha⟩ := safeRoaPass_total llo sym v b f S Sdot (afterSteps step m θ) hnd hlab hne htot
      refine ⟨_, by rw [ha]; rfl, ?_⟩
      simp only [Bool.and_eq_true, decide_eq_true_eq, and_assoc]
      constructor
      · rintro ⟨h1, h2⟩
        exact ⟨h1, fun a' ha' => by rw [ha] at ha'; cases ha'; exact h2⟩
      · rintro ⟨h1, h2⟩
        exact ⟨h1, h2 a ha⟩)
  obtain ⟨pi, hi⟩ := Option.isSome_iff_exists.1 (Dict.get?_isSome_iff.2 (hlab XI (by simp)))
  have gi : Dict.get S XI = .ok pi := by unfold Dict.get; rw [hi]
  obtain ⟨x, xs, rfl⟩ := List.exists_cons_of_ne_nil (hne _ _ hi)
  obtain ⟨beta, hb⟩ : ∃ beta, computeMaximum (out (afterSteps step n θ)) (x :: xs) = .ok beta := ⟨_, rfl⟩
  refine ⟨n, beta, ?_⟩
  unfold safeRoaLearn
  rw [if_pos hlen]
  simp only [Bind.bind, Except.bind, pure, Except.pure] at hn ⊢
  rw [hn]
  simp only [gi, hb]

/-- `ReachAvoidRemain.learn` returns. -/
theorem rarLearn_total (sym : Bool) (v b : Values Θ P) (f : Option (Θ → P → P)) (step : ℕ → Θ → Θ) (S Sdot : Dict String (List P)) (θ : Θ)
    (hlab : ∀ l ∈ [XD, XI, XU, XG, XF, XNF], l ∈ Dict.keys S) (hne : ∀ l p, Dict.get? S l = some p → p ≠ []) (hlen : S.length = Sdot.length)
    (htot : f = none → (catValues Sdot).length = ([XD, XI, XU, XG, XF, XNF].map (sizeOf' S)).sum) :
    ∃ n, rarLearn sym v b f step S Sdot θ = .ok (afterSteps step n θ, n) := by
  unfold rarLearn
  rw [if_pos hlen]
  obtain ⟨n, hn, -⟩ := twiceLoop_exact (pass := rarPass sym v b f S Sdot) (ok := rarOk) (step := step) (θ := θ)
    (C := fun m => ∀ a, rarPass sym v b f S Sdot (afterSteps step m θ) = .ok a → rarOk a = true) (by
      intro m
      obtain ⟨a, ha⟩ := rarPass_total sym v b f S Sdot (afterSteps step m θ) hlab hne htot
      exact ⟨a, ha, fun h a' ha' => by rw [ha] at ha'; cases ha'; exact h, fun h => h a ha⟩)
  exact ⟨n, hn⟩

end

/-! ### the data -/

namespace Spec

/-- Data the training of a certificate with two networks can use: as `TrainData`, moreover a dictionary without repeated keys and without empty entries, for RAR
with exactly the labels required (which `_assert_state` checks, certificate.py:1593-1599). -/
structure TrainData2 (n : ℕ) (cert : CertType) (S Sdot : Dict String (List (List ℚ))) : Prop where
  data : TrainData n cert S Sdot
  nodup : (Dict.keys S).Nodup
  full : ∀ l p, Dict.get? S l = some p → p ≠ []
  only : cert = .RAR → ∀ l ∈ Dict.keys S, l ∈ trainLabels cert

end Spec

theorem addCes_keys {P : Type} {dyn : P → P} : ∀ (ces S Sdot S' Sdot' : Dict String (List P)), addCes dyn ces S Sdot = .ok (S', Sdot') →
    (∀ l p, Dict.get? S l = some p → p ≠ []) → Dict.keys S' = Dict.keys S ∧ ∀ l p, Dict.get? S' l = some p → p ≠ [] := by
  intro ces
  induction ces with
  | nil => intro S Sdot S' Sdot' he h; cases he; exact ⟨rfl, h⟩
  | cons e rest ih =>
    obtain ⟨lab, new⟩ := e
    intro S Sdot S' Sdot' he h
    unfold addCes at he
    split at he
    · exact ih _ _ _ _ he h
    · split at he
      · cases he
      · rename_i old ho
        have hm : lab ∈ Dict.keys S := Dict.get?_isSome_iff.1 (by rw [ho]; rfl)
        obtain ⟨h1, h2⟩ := ih _ _ _ _ he (by
          intro l p hp
          rw [Dict.get?_set] at hp
          split at hp
          · cases hp
            simp [h _ _ ho]
          · exact h l p hp)
        exact ⟨by rw [h1, keys_set_of_mem hm], h2⟩

theorem addCes_data2 {n : ℕ} {cert : CertType} {dyn : List ℚ → List ℚ} (hdyn : ∀ x, x.length = n → (dyn x).length = n)
    {ces S Sdot S' Sdot' : Dict String (List (List ℚ))} (h : TrainData2 n cert S Sdot) (hw : ∀ e ∈ ces, ∀ r ∈ e.2, r.length = n)
    (he : addCes dyn ces S Sdot = .ok (S', Sdot')) : TrainData2 n cert S' Sdot' := by
  obtain ⟨h1, h2⟩ := addCes_keys _ _ _ _ _ he h.full
  exact ⟨addCes_data hdyn _ _ _ _ _ h.data hw he, h1 ▸ h.nodup, h2, fun e => h1 ▸ h.only e⟩

/-- Stored derivatives are as many as samples. -/
theorem trainData2_total {n : ℕ} {cert : CertType} {S Sdot : Dict String (List (List ℚ))} (h : TrainData2 n cert S Sdot) :
    (catValues Sdot).length = (catValues S).length := by
  rw [catValues_length S h.nodup, catValues_length Sdot (by rw [h.data.keys]; exact h.nodup), h.data.keys]
  congr 1
  refine List.map_congr_left fun l hl => ?_
  obtain ⟨p, hp⟩ := Option.isSome_iff_exists.1 (Dict.get?_isSome_iff.2 hl)
  obtain ⟨d, hd, hlen, -⟩ := h.data.dots l p hp
  simp [sizeOf', hp, hd, hlen]

/-! ### training -/

theorem afterSteps_usable2 {K : Type} {lib : Lib} {n : ℕ} {step : ℕ → (Net × Net) × K → (Net × Net) × K}
    (h : ∀ t θ, Usable lib n θ.1.1 ∧ Usable lib n θ.1.2 → Usable lib n (step t θ).1.1 ∧ Usable lib n (step t θ).1.2) (θ : (Net × Net) × K)
    (hθ : Usable lib n θ.1.1 ∧ Usable lib n θ.1.2) : ∀ m, Usable lib n (afterSteps step m θ).1.1 ∧ Usable lib n (afterSteps step m θ).1.2 := by
  intro m
  induction m with
  | zero => exact hθ
  | succ m ih => exact h _ _ ih

/-- Training with two networks returns usable networks, for every order of the data dictionary. -/
theorem trainedLearn2_total {K : Type} (T : Trainer2 K) (c : SynthCfg) (dynNum : K → List ℚ → List ℚ) (hct : c.cert = .STABLESAFE ∨ c.cert = .RAR)
    (hstep : ∀ i t θ, Usable c.lib c.nVars θ.1.1 ∧ Usable c.lib c.nVars θ.1.2 → Usable c.lib c.nVars (T.step i t θ).1.1 ∧ Usable c.lib c.nVars (T.step i t θ).1.2)
    (st : LoopState ((Net × ℚ) × Net) K (List ℚ) (Term × Term)) (hn : Usable c.lib c.nVars st.net.1.1 ∧ Usable c.lib c.nVars st.net.2)
    (hd : TrainData2 c.nVars c.cert st.S st.Sdot) :
    ∃ n k, trainedLearn2 T c dynNum st = .ok (n, k) ∧ Usable c.lib c.nVars n.1.1 ∧ Usable c.lib c.nVars n.2 := by
  have hus := afterSteps_usable2 (hstep st.iters) ((st.net.1.1, st.net.2), st.ctrl) hn
  have hlen : st.S.length = st.Sdot.length := by
    have := congrArg List.length hd.data.keys
    simpa [Dict.keys] using this.symm
  have hw : (widthOk st.net.1.1.inputSize st.S (Dict.keys st.S) && widthOk st.net.1.1.inputSize st.Sdot (Dict.keys st.S) &&
      decide (st.net.2.inputSize = st.net.1.1.inputSize)) = true := by
    rw [show st.net.1.1.inputSize = c.nVars from hn.1.1.input, widthOk_of hd.data.rows, widthOk_of (trainData_dots hd.data),
      decide_eq_true (show st.net.2.inputSize = c.nVars from hn.2.1.input)]
    rfl
  have hin : ∀ l ∈ trainLabels c.cert, l ∈ Dict.keys st.S := by
    intro l hl
    obtain ⟨p, hp, -⟩ := hd.data.labels l hl
    exact Dict.get?_isSome_iff.1 (by rw [hp]; rfl)
  unfold trainedLearn2
  dsimp only
  rw [if_pos hw]
  rcases hct with hc | hc
  · rw [hc] at hin ⊢
    obtain ⟨j, b, hj⟩ := safeRoaLearn_total c.llo T.symmetric (trainValuesV K c.quad) (trainValuesB K c.quad) (fun θ x => trainOut (θ.1.1, θ.2) x)
      (if T.controlled then some (fun θ : (Net × Net) × K => dynNum θ.2) else none) (T.step st.iters) st.S st.Sdot ((st.net.1.1, st.net.2), st.ctrl) hd.nodup hin hd.full hlen
      (fun _ => trainData2_total hd)
    exact ⟨_, _, by dsimp only; rw [hj]; rfl, (hus j).1, (hus j).2⟩
  · have htot := labels_eq_total (L := trainLabels c.cert) hd.nodup (by rw [hc]; decide) (fun l => ⟨hin l, hd.only hc l⟩)
    rw [hc] at hin htot ⊢
    obtain ⟨j, hj⟩ := rarLearn_total T.symmetric (trainValuesV K c.quad) (trainValuesB K c.quad)
      (if T.controlled then some (fun θ : (Net × Net) × K => dynNum θ.2) else none) (T.step st.iters) st.S st.Sdot ((st.net.1.1, st.net.2), st.ctrl) hin hd.full hlen
      (fun _ => by rw [trainData2_total hd, ← htot]; rfl)
    exact ⟨_, _, by dsimp only; rw [hj]; rfl, (hus j).1, (hus j).2⟩

/-! ### the whole run -/

/-- The state invariant of a run with two networks. -/
def RunReady2 (c : SynthCfg) {K : Type} (st : LoopState ((Net × ℚ) × Net) K (List ℚ) (Term × Term)) : Prop :=
  (Usable c.lib c.nVars st.net.1.1 ∧ Usable c.lib c.nVars st.net.2) ∧ TrainData2 c.nVars c.cert st.S st.Sdot

theorem queryLabels_trained2 {cert : CertType} (h : cert = .STABLESAFE ∨ cert = .RAR) : ∀ l ∈ queryLabels cert, l ∈ trainLabels cert := by
  rcases h with rfl | rfl <;> (intro l hl; simp [queryLabels, trainLabels] at hl ⊢; tauto)

theorem pass_ready2 {R K : Type} (w : World R K ((Net × ℚ) × Net)) (c : SynthCfg) (T : Trainer2 K)
    (hlib : c.lib = .z3 ∨ c.lib = .dreal) (hct : c.cert = .STABLESAFE ∨ c.cert = .RAR)
    (hsets : UsableSets c.nVars c.domains) (hlab : ∀ l ∈ setsOf c.cert, ∃ S, Dict.get? c.domains l = some S) (hw : FairWorld w c.nVars)
    (hstep : ∀ i t θ, Usable c.lib c.nVars θ.1.1 ∧ Usable c.lib c.nVars θ.1.2 → Usable c.lib c.nVars (T.step i t θ).1.1 ∧ Usable c.lib c.nVars (T.step i t θ).1.2)
    (st : LoopState ((Net × ℚ) × Net) K (List ℚ) (Term × Term)) (hr : RunReady2 c st) :
    ∃ b st', loopBody c.loop (doubleComponents w c (trainedLearn2 T c w.dynNum)) st = .ok (b, st') ∧ RunReady2 c st' := by
  obtain ⟨n, k, h1, hn⟩ := trainedLearn2_total T c w.dynNum hct hstep st hr.1 hr.2
  set C := doubleComponents w c (trainedLearn2 T c w.dynNum) with hC
  have e1 : C.learn st = .ok (n, k) := h1
  obtain ⟨V, Vdot, e2⟩ : ∃ V Vdot, C.translate n k = .ok (V, Vdot) := by
    obtain ⟨⟨⟨V, Vdot⟩, ⟨B, Bdot⟩⟩, ht⟩ := (C70_translates_iff_double c.lib c.rounding none c.nVars n.1.1 n.2 hn.1.1 hn.2.1 _ (hw.dyn k)).2 (by
      intro a ha
      rcases List.mem_append.1 ha with ha | ha
      · exact hn.1.2 a ha
      · exact hn.2.2 a ha)
    refine ⟨(V, B), (Vdot, Bdot), ?_⟩
    show Except.bind _ _ = _
    rw [ht]
    rfl
  obtain ⟨f, cex, e3, hlabs, hwid⟩ : ∃ f cex, C.verify st.iters n V Vdot = .ok (f, cex) ∧ (∀ l ∈ Dict.keys cex, l ∈ queryLabels c.cert) ∧
      ∀ e ∈ cex, ∀ r ∈ e.2, r.length = c.nVars := by
    obtain ⟨d, hi, hsc⟩ := double_constraints_total c.lib c.nVars c.cert c.llo n.1.2 c.domains hlib hct hsets hlab
    obtain ⟨g, hg, hr1, hr2⟩ := hsc V.1 Vdot.1 V.2 Vdot.2
    obtain ⟨r, hr'⟩ := C70_verify_total w.backend c.nVars (w.noise st.iters) (w.oracle st.iters) g (hw.val st.iters)
    refine ⟨r.found, r.cex, ?_, fun l hl => ?_, verify_width hr'⟩
    · show Except.bind _ _ = _
      rw [hi]
      show Except.bind _ _ = _
      have hg' := hg
      rcases hct with hc | hc <;> rw [hc] at hg' ⊢ <;> dsimp only at hg' ⊢ <;> simp only [Except.bind, Bind.bind, hg', hr', pure, Except.pure]
    · obtain ⟨g', hg', hl'⟩ := verify_labels hr' l hl
      have hm : Dict.keys g' ∈ g.map Dict.keys := List.mem_map_of_mem hg'
      rcases hct with hc | hc
      · rw [hr2 hc] at hm
        rw [hc]
        simp only [List.mem_cons, List.not_mem_nil, or_false] at hm
        rcases hm with h | h | h <;> rw [h] at hl' <;> simp only [List.mem_cons, List.not_mem_nil, or_false] at hl' <;>
          simp only [queryLabels, List.mem_cons, List.not_mem_nil, or_false] <;> tauto
      · rw [hr1 hc] at hm
        rw [hc]
        simp only [List.mem_cons, List.not_mem_nil, or_false] at hm
        rcases hm with h | h | h | h <;> rw [h] at hl' <;> simp only [List.mem_cons, List.not_mem_nil, or_false] at hl' <;>
          simp only [queryLabels, List.mem_cons, List.not_mem_nil, or_false] <;> tauto
  obtain ⟨traj, e4, -⟩ := hw.cons st.iters n k cex
  have e4' : C.consolidate st.iters n k cex = .ok traj := e4
  have hkeys : ∀ l ∈ Dict.keys cex, l ∈ Dict.keys st.S := fun l hl => by
    obtain ⟨p, hp, -⟩ := hr.2.data.labels l (queryLabels_trained2 hct l (hlabs l hl))
    exact Dict.get?_isSome_iff.1 (by rw [hp]; rfl)
  have hne : c.loop.cert ≠ .LYAPUNOV ∧ c.loop.cert ≠ .ROA ∧ c.loop.cert ≠ .RSWS := by
    have : c.loop.cert = c.cert := rfl
    rw [this]
    rcases hct with hc | hc <;> rw [hc] <;> decide
  have hdbl : c.loop.double = true := by
    unfold LoopCfg.double
    have : c.loop.cert = c.cert := rfl
    rw [this]
    rcases hct with hc | hc <;> rw [hc] <;> rfl
  have hdec : ∃ b st2, loopDecide c.loop C V Vdot (st.after n k V Vdot f cex traj) = .ok (b, st2) ∧ RunReady2 c st2 := by
    have hready : RunReady2 c (st.after n k V Vdot f cex traj) := ⟨hn, hr.2⟩
    unfold loopDecide
    split
    · unfold processCertificate
      rw [if_neg (by rintro (h | h); exacts [hne.1 h, hne.2.1 h])]
      simp only [hne.2.2, if_false]
      exact ⟨_, _, rfl, hready⟩
    · split
      · exact ⟨_, _, rfl, hready⟩
      · split
        · exact ⟨_, _, rfl, hready⟩
        · obtain ⟨S', Sdot', ha, -⟩ := addCes_total (C.dyn (st.after n k V Vdot f cex traj).ctrl) cex st.S st.Sdot hkeys
          have hp : processCex c.loop.double C (st.after n k V Vdot f cex traj) =
              .ok { st.after n k V Vdot f cex traj with cex := cex, S := S', Sdot := Sdot' } := by
            unfold processCex
            rw [hdbl]
            simp only [if_true]
            rw [show (st.after n k V Vdot f cex traj).S = st.S from rfl, show (st.after n k V Vdot f cex traj).cex = cex from rfl,
              show (st.after n k V Vdot f cex traj).Sdot = st.Sdot from rfl, ha]
          rw [hp]
          exact ⟨_, _, rfl, hn, addCes_data2 (fun x hx => hw.num _ x hx) hr.2 hwid ha⟩
  obtain ⟨b, st2, h5, h6⟩ := hdec
  exact ⟨b, st2.tick, by simp only [loopBody, e1, e2, e3, e4', h5, Bind.bind, Except.bind, pure, Except.pure], h6⟩

/-- **C75 (complete runs with two networks never raise).** With z3 or dReal, for the certificates STABLESAFE and RAR: if the sets of the certificate are given and
usable, both initial networks fit together and have supported activations, optimiser steps keep them so, the data have no empty entry and rows of the right
width (for RAR exactly the required labels), and the environment does its part, then the run of the whole loop with training returns a result within
`CEGIS_MAX_ITERS + 1` passes — whatever the order of the data dictionary, the solver's answers, the optimiser and the freezing do. -/
theorem C75_run_total {R K : Type} (w : World R K ((Net × ℚ) × Net)) (c : SynthCfg) (T : Trainer2 K)
    (hlib : c.lib = .z3 ∨ c.lib = .dreal) (hct : c.cert = .STABLESAFE ∨ c.cert = .RAR) (hN : 0 ≤ c.maxIters)
    (hsets : UsableSets c.nVars c.domains) (hlab : ∀ l ∈ setsOf c.cert, ∃ S, Dict.get? c.domains l = some S) (hw : FairWorld w c.nVars)
    (hstep : ∀ i t θ, Usable c.lib c.nVars θ.1.1 ∧ Usable c.lib c.nVars θ.1.2 → Usable c.lib c.nVars (T.step i t θ).1.1 ∧ Usable c.lib c.nVars (T.step i t θ).1.2)
    (net : (Net × ℚ) × Net) (ctrl : K) (S : Dict String (List (List ℚ))) (hnet : Usable c.lib c.nVars net.1.1 ∧ Usable c.lib c.nVars net.2)
    (hnd : (Dict.keys S).Nodup) (hrows : ∀ l p, Dict.get? S l = some p → p ≠ [] ∧ ∀ r ∈ p, r.length = c.nVars)
    (hdata : ∀ l ∈ trainLabels c.cert, l ∈ Dict.keys S) (honly : c.cert = .RAR → ∀ l ∈ Dict.keys S, l ∈ trainLabels c.cert)
    (hD : ∀ l ∈ Dict.keys S, hasLie l = true → l = XD) :
    ∃ out, Solves c.loop (doubleComponents w c (trainedLearn2 T c w.dynNum)) net ctrl S out ∧ (out.iters : ℤ) ≤ c.maxIters + 1 := by
  have h0 : RunReady2 c (initState (doubleComponents w c (trainedLearn2 T c w.dynNum)) net ctrl S) := by
    refine ⟨hnet, initState_data (fun x hx => hw.num _ x hx) (fun l p hp => (hrows l p hp).2) (fun l hl => ?_) hD, hnd, fun l p hp => (hrows l p hp).1, honly⟩
    obtain ⟨p, hp⟩ := Option.isSome_iff_exists.1 (Dict.get?_isSome_iff.2 (hdata l hl))
    exact ⟨p, hp, (hrows l p hp).1⟩
  rcases run_or_bad c.loop hN (doubleComponents w c (trainedLearn2 T c w.dynNum)) (RunReady2 c) (fun _ => False)
    (fun st hi => Or.inr (pass_ready2 w c T hlib hct hsets hlab hw hstep st hi)) net ctrl S h0 with h | ⟨k, st, -, -, h⟩
  · exact h
  · exact h.elim

/-- Data that pass the label check have the labels training needs. -/
theorem checked_labels {ct : CertType} (hc : ct ≠ .CUSTOM) {doms data : List String} (h : assertState ct doms data = .ok ()) :
    (∀ l ∈ trainLabels ct, l ∈ data) ∧ (ct = .RAR → ∀ l ∈ data, l ∈ trainLabels ct) ∧ ∀ l ∈ data, hasLie l = true → l = XD := by
  have h2 := ((C42_assert_state_iff ct hc doms data).1.1 h).2
  have hlie : ∀ l ∈ [XD, XI, XU, XS, XG, XGB, XF, XNF, XR], hasLie l = true → l = XD := by decide
  refine ⟨fun l hl => ?_, fun e l hl => ?_, fun l hl => hlie l ?_⟩
  · rcases h2 with h2 | ⟨rfl, h2⟩
    · refine (h2 l).2 ?_
      cases ct <;> simp only [trainLabels, requiredData, List.mem_cons, List.not_mem_nil, or_false, Set.mem_insert_iff, Set.mem_singleton_iff] at hl ⊢ <;>
        first | exact absurd rfl hc | tauto
    · refine (h2 l).2 ?_
      simp only [trainLabels, List.mem_cons, List.not_mem_nil, or_false, Set.mem_insert_iff, Set.mem_singleton_iff] at hl ⊢
      tauto
  · subst e
    rcases h2 with h2 | ⟨e, -⟩
    · have := (h2 l).1 hl
      simp only [trainLabels, requiredData, List.mem_cons, List.not_mem_nil, or_false, Set.mem_insert_iff, Set.mem_singleton_iff] at this ⊢
      tauto
    · cases e
  · rcases h2 with h2 | ⟨rfl, h2⟩
    · have := (h2 l).1 hl
      cases ct <;> simp only [requiredData, List.mem_cons, List.not_mem_nil, or_false, Set.mem_insert_iff, Set.mem_singleton_iff, Set.mem_empty_iff_false] at this ⊢ <;> tauto
    · have := (h2 l).1 hl
      simp only [List.mem_cons, List.not_mem_nil, or_false, Set.mem_insert_iff, Set.mem_singleton_iff] at this ⊢
      tauto

/-- **C75 (checked configurations, two networks).** As `C75_run_total`, with the label check of the constructor instead of the hypotheses on the labels. -/
theorem C75_run_total_checked {R K : Type} (w : World R K ((Net × ℚ) × Net)) (c : SynthCfg) (T : Trainer2 K)
    (hlib : c.lib = .z3 ∨ c.lib = .dreal) (hct : c.cert = .STABLESAFE ∨ c.cert = .RAR) (hN : 0 ≤ c.maxIters)
    (hsets : UsableSets c.nVars c.domains) (hlab : ∀ l ∈ setsOf c.cert, ∃ S, Dict.get? c.domains l = some S) (hw : FairWorld w c.nVars)
    (hstep : ∀ i t θ, Usable c.lib c.nVars θ.1.1 ∧ Usable c.lib c.nVars θ.1.2 → Usable c.lib c.nVars (T.step i t θ).1.1 ∧ Usable c.lib c.nVars (T.step i t θ).1.2)
    (net : (Net × ℚ) × Net) (ctrl : K) (S : Dict String (List (List ℚ))) (hnet : Usable c.lib c.nVars net.1.1 ∧ Usable c.lib c.nVars net.2)
    (hnd : (Dict.keys S).Nodup) (hrows : ∀ l p, Dict.get? S l = some p → p ≠ [] ∧ ∀ r ∈ p, r.length = c.nVars)
    (doms : List String) (hcheck : assertState c.cert doms (Dict.keys S) = .ok ()) :
    ∃ out, Solves c.loop (doubleComponents w c (trainedLearn2 T c w.dynNum)) net ctrl S out ∧ (out.iters : ℤ) ≤ c.maxIters + 1 := by
  obtain ⟨h1, h2, h3⟩ := checked_labels (by rcases hct with h | h <;> rw [h] <;> decide) hcheck
  exact C75_run_total w c T hlib hct hN hsets hlab hw hstep net ctrl S hnet hnd hrows h1 h2 h3

/-- **C74/C75 (checked configurations, one network).** As `C74_run_total`, with the label check of the constructor instead of the hypotheses on the labels. -/
theorem C75_run_total_checked_single {R K : Type} (w : World R K (Net × ℚ)) (c : SynthCfg) (discrete : Bool) (T : Trainer K) (g g' : Rng)
    (hlib : c.lib = .z3 ∨ c.lib = .dreal) (hct : SingleCert c.cert) (hN : 0 ≤ c.maxIters)
    (hsets : UsableSets c.nVars c.domains) (hlab : ∀ l ∈ setsOf c.cert, ∃ S, Dict.get? c.domains l = some S)
    (hXD : c.cert = .LYAPUNOV → ∀ S, Dict.get? c.domains XD = some S → BorderDrawn S ∧ AllCoords c.nVars S ∧ unionDepth S ≤ 8)
    (hrnd : discrete = true → c.rounding ≠ 0) (hw : FairWorld w c.nVars)
    (hstay : c.cert = .RSWS → ∀ i V Vdot, ∃ k β, BetaRun (stayCheckFor w.backend (w.stayOracle i) c V Vdot) betaInit k β)
    (hstep : ∀ i t θ, Usable c.lib c.nVars θ.1 → Usable c.lib c.nVars (T.step i t θ).1)
    (net : Net × ℚ) (ctrl : K) (S : Dict String (List (List ℚ))) (hnet : Usable c.lib c.nVars net.1)
    (hrows : ∀ l p, Dict.get? S l = some p → p ≠ [] ∧ ∀ r ∈ p, r.length = c.nVars)
    (doms : List String) (hcheck : assertState c.cert doms (Dict.keys S) = .ok ()) :
    (∃ out, Solves c.loop (singleComponents (w.withEstimate g g' c) c discrete (trainedLearn T c discrete w.dynNum)) net ctrl S out ∧
      (out.iters : ℤ) ≤ c.maxIters + 1) ∨
    (c.cert = .LYAPUNOV ∧ ∃ k st, Steps c.loop (singleComponents (w.withEstimate g g' c) c discrete (trainedLearn T c discrete w.dynNum))
      (initState (singleComponents (w.withEstimate g g' c) c discrete (trainedLearn T c discrete w.dynNum)) net ctrl S) k st ∧
      MeetsZeroDerivative T c discrete w.dynNum st) := by
  obtain ⟨h1, -, h3⟩ := checked_labels hct.2.2 hcheck
  refine C74_run_total w c discrete T g g' hlib hct hN hsets hlab hXD hrnd hw hstay hstep net ctrl S hnet (fun l p hp => (hrows l p hp).2) (fun l hl => ?_) h3
  obtain ⟨p, hp⟩ := Option.isSome_iff_exists.1 (Dict.get?_isSome_iff.2 (h1 l hl))
  exact ⟨p, hp, (hrows l p hp).1⟩

/-- **C75 (unexpected label).** Training a RAR certificate without controller raises AssertionError if the data have a non-empty label that is not required; that
is why `_assert_state` refuses such data. -/
theorem C75_rar_extra_label {Θ P : Type} (sym : Bool) (v b : Values Θ P) (step : ℕ → Θ → Θ) (S Sdot : Dict String (List P)) (θ : Θ)
    (hnd : (Dict.keys S).Nodup) (hlab : ∀ l ∈ trainLabels .RAR, l ∈ Dict.keys S) (hlen : S.length = Sdot.length)
    (htot : (catValues Sdot).length = (catValues S).length) (l : String) (p : List P) (hl : l ∉ trainLabels .RAR) (hp : Dict.get? S l = some p) (hne : p ≠ []) :
    rarLearn sym v b none step S Sdot θ = .error .assertionError := by
  have get : ∀ l ∈ trainLabels .RAR, ∃ p, Dict.get? S l = some p ∧ Dict.get S l = .ok p := by
    intro l hl
    obtain ⟨p, hp⟩ := Option.isSome_iff_exists.1 (Dict.get?_isSome_iff.2 (hlab l hl))
    exact ⟨p, hp, by unfold Dict.get; rw [hp]⟩
  obtain ⟨pd, hd, gd⟩ := get XD (by simp [trainLabels])
  obtain ⟨pi, hi, gi⟩ := get XI (by simp [trainLabels])
  obtain ⟨pu, hu, gu⟩ := get XU (by simp [trainLabels])
  obtain ⟨pg, hg, gg⟩ := get XG (by simp [trainLabels])
  obtain ⟨pf, hf, gf⟩ := get XF (by simp [trainLabels])
  obtain ⟨pn, hn, gn⟩ := get XNF (by simp [trainLabels])
  obtain ⟨samples, hsm, hsml⟩ := catLabels_total hlab
  have hle := labels_le_total (L := l :: trainLabels .RAR) hnd (List.nodup_cons.2 ⟨hl, by decide⟩) (by
    intro l' hl'
    rcases List.mem_cons.1 hl' with rfl | h
    · exact Dict.get?_isSome_iff.1 (by rw [hp]; rfl)
    · exact hlab _ h)
  have hpos : 0 < p.length := List.length_pos_of_ne_nil hne
  simp only [List.map_cons, List.sum_cons] at hle
  have hne' : samples.length ≠ (catValues Sdot).length := by
    rw [htot, hsml]
    have : sizeOf' S l = p.length := by simp [sizeOf', hp]
    simp only [trainLabels, List.map_cons, List.sum_cons] at hle ⊢
    omega
  have hpass : rarPass sym v b none S Sdot θ = .error .assertionError := by
    unfold rarPass
    simp only [trainLabels] at hsm
    simp only [gd, gi, gu, gg, gf, gn, hsm, samplesDot, Bind.bind, Except.bind, getAll, hne', if_false]
  unfold rarLearn
  rw [if_pos hlen]
  unfold twiceLoop learnLoops
  simp only [trainLoop, hpass, Bind.bind, Except.bind]

/-! ### progress of reach-avoid-remain runs -/

/-- The values part of a pass of `ReachAvoidRemain.learn` does not depend on the order of the dictionaries. -/
theorem rarPass_values {Θ P : Type} {sym : Bool} {v b : Values Θ P} {f : Option (Θ → P → P)} {S Sdot : Dict String (List P)} {θ : Θ} {a}
    (h : rarPass sym v b f S Sdot θ = .ok a) (hok : rarOk a = true) :
    ∃ pi pu pg pn, Dict.get? S XI = some pi ∧ Dict.get? S XU = some pu ∧ Dict.get? S XG = some pg ∧ Dict.get? S XNF = some pn ∧
      (∀ x ∈ pi, v.val θ x ≤ 0) ∧ (∀ x ∈ pu, 0 ≤ v.val θ x) ∧ (∀ x ∈ pg, b.val θ x ≤ 0) ∧ ∀ x ∈ pn, 0 ≤ b.val θ x := by
  have back : ∀ {l p}, Dict.get S l = .ok p → Dict.get? S l = some p := by
    intro l p h
    unfold Dict.get at h
    split at h
    · rename_i h'; cases h; exact h'
    · cases h
  unfold rarPass at h
  obtain ⟨pd, gd, h⟩ := except_bind_ok h
  obtain ⟨pi, gi, h⟩ := except_bind_ok h
  obtain ⟨pu, gu, h⟩ := except_bind_ok h
  obtain ⟨pg, gg, h⟩ := except_bind_ok h
  obtain ⟨pf, gf, h⟩ := except_bind_ok h
  obtain ⟨pn, gn, h⟩ := except_bind_ok h
  obtain ⟨samples, hs, h⟩ := except_bind_ok h
  obtain ⟨sdot, -, h⟩ := except_bind_ok h
  obtain ⟨⟨V, Vdot⟩, hV, h⟩ := except_bind_ok h
  obtain ⟨x, hx, h⟩ := except_bind_ok h
  obtain ⟨⟨B, Bdot⟩, hB, h⟩ := except_bind_ok h
  obtain ⟨y, hy, h⟩ := except_bind_ok h
  cases h
  have hsam : samples = pd ++ (pi ++ (pu ++ (pg ++ (pf ++ (pn ++ []))))) := by
    simp only [catLabels, gd, gi, gu, gg, gf, gn, Bind.bind, Except.bind, pure, Except.pure] at hs
    exact (Except.ok.inj hs).symm
  have hVv : V = samples.map (v.val θ) := by
    unfold getAll at hV
    split at hV
    · cases hV; rfl
    · cases hV
  have hBv : B = samples.map (b.val θ) := by
    unfold getAll at hB
    split at hB
    · cases hB; rfl
    · cases hB
  simp only [rarOk, Bool.and_eq_true, decide_eq_true_eq] at hok
  obtain ⟨⟨⟨o1, -⟩, o3⟩, -⟩ := hok
  have s1 : slice pd.length (pd.length + pi.length) V = valsAt v θ pi := by
    rw [hVv, hsam]
    simp only [List.map_append]
    exact slice_append_left _ _ _ (by simp [Nat.add_assoc]) (by simp [Nat.add_assoc])
  have s2 : slice (pd.length + pi.length) (pd.length + pi.length + pu.length) V = valsAt v θ pu := by
    rw [hVv, hsam]
    simp only [List.map_append]
    rw [← List.append_assoc]
    exact slice_append_left _ _ _ (by simp [Nat.add_assoc]) (by simp [Nat.add_assoc])
  have s3 : slice (pd.length + pi.length + pu.length) (pd.length + pi.length + pu.length + pg.length) B = valsAt b θ pg := by
    rw [hBv, hsam]
    simp only [List.map_append]
    rw [← List.append_assoc, ← List.append_assoc]
    exact slice_append_left _ _ _ (by simp [Nat.add_assoc]) (by simp [Nat.add_assoc])
  have s4 : slice (pd.length + pi.length + pu.length + pg.length + pf.length) (pd.length + pi.length + pu.length + pg.length + pf.length + pn.length) B = valsAt b θ pn := by
    rw [hBv, hsam]
    simp only [List.map_append]
    rw [← List.append_assoc, ← List.append_assoc, ← List.append_assoc, ← List.append_assoc]
    exact slice_append_left _ _ _ (by simp [Nat.add_assoc]) (by simp [Nat.add_assoc])
  have iu : ∀ {w : Values Θ P} {p q : List P}, initUnsafeAcc 0 (valsAt w θ p) (valsAt w θ q) = .ok 100 → (∀ x ∈ p, w.val θ x ≤ 0) ∧ ∀ x ∈ q, 0 ≤ w.val θ x := by
    intro w p q h
    by_cases hne : p ≠ [] ∨ q ≠ []
    · simpa using (initUnsafe_samples w θ 0 hne).1 h
    · push Not at hne
      obtain ⟨rfl, rfl⟩ := hne
      constructor <;> (intro x hx; cases hx)
  have r1 : initUnsafeAcc 0 (valsAt v θ pi) (valsAt v θ pu) = .ok 100 := by
    rw [s1, s2] at hx
    unfold rwsAcc at hx
    obtain ⟨q, q1, q2⟩ := except_bind_ok hx
    have : x.1 = q := by
      dsimp only at q2
      split at q2 <;> (cases q2; rfl)
    rw [q1, ← this]
    exact congrArg _ o1
  have r2 : initUnsafeAcc 0 (valsAt b θ pg) (valsAt b θ pn) = .ok 100 := by
    rw [s3, s4] at hy
    unfold barrierAcc at hy
    obtain ⟨q, q1, q2⟩ := except_bind_ok hy
    have : y.1 = q := by
      dsimp only at q2
      split at q2 <;> (cases q2; rfl)
    have hle := initUnsafe_le q1
    rw [q1, le_antisymm hle (by rw [← this]; exact o3)]
  exact ⟨pi, pu, pg, pn, back gi, back gu, back gg, back gn, (iu r1).1, (iu r1).2, (iu r2).1, (iu r2).2⟩

theorem double_cex_nodup {R K : Type} {w : World R K ((Net × ℚ) × Net)} {c : SynthCfg} {learn} :
    ∀ i n V Vdot f cex, (doubleComponents w c learn).verify i n V Vdot = .ok (f, cex) → cex.keys.Nodup := by
  intro i n V Vdot f cex h
  obtain ⟨d, hd, hv⟩ := except_bind_ok h
  obtain ⟨g, hg, hv⟩ := except_bind_ok hv
  obtain ⟨⟨of, oc⟩, ho, hv⟩ := except_bind_ok hv
  cases hv
  rw [verify_keys ho]
  exact solveGroups_keys_nodup _ _ _ _ _ (by simp [Dict.keys])

/-- A counterexample is among the samples of its label in every later state that has such samples. -/
theorem refuted_in_data2 {N K P E : Type} {cfg : LoopCfg} {C : Components N K P E} (hcex : ∀ i n V Vdot f cex, C.verify i n V Vdot = .ok (f, cex) → cex.keys.Nodup)
    {st st1 st2 : LoopState N K P E} {k : ℕ} {l : String} {x : P} {p : List P} (h2 : loopBody cfg C st = .ok (false, st1)) (h3 : Steps cfg C st1 k st2)
    (hx : Refuted C st l x) (hp : Dict.get? st2.S l = some p) : x ∈ p := by
  obtain ⟨net, ctrl, V, Vdot, cex, rows, e1, e2, e3, e4, e5⟩ := hx
  have hs : Steps cfg C st (1 + k) st2 := by
    have : ∀ {k st2}, Steps cfg C st1 k st2 → Steps cfg C st (1 + k) st2 := by
      intro k st2 h
      induction h with
      | refl => exact .tail (.refl _) h2
      | tail _ hb ih => exact .tail ih hb
    exact this h3
  obtain ⟨data, hd, hx⟩ := C29_counterexamples_kept cfg C hcex st st1 st2 k h2 h3 net ctrl e1 V Vdot e2 cex e3 l rows e4 x e5 (by
    intro hn
    rw [(C29_data_prefix cfg C hcex st st2 _ hs l).2 hn] at hp
    cases hp)
  rw [hp] at hd
  cases hd
  exact hx

/-- What training of a RAR certificate returns. -/
theorem trained_rar {K : Type} {T : Trainer2 K} {c : SynthCfg} {dynNum : K → List ℚ → List ℚ} (hc : c.cert = .RAR)
    {st : LoopState ((Net × ℚ) × Net) K (List ℚ) (Term × Term)} {n : (Net × ℚ) × Net} {k : K} (h : trainedLearn2 T c dynNum st = .ok (n, k)) :
    ∃ m, 1 ≤ m ∧ m ≤ 1000 ∧ ((n.1.1, n.2), k) = afterSteps (T.step st.iters) m ((st.net.1.1, st.net.2), st.ctrl) ∧
      (m < 1000 → ∃ pi pu pg pn, Dict.get? st.S XI = some pi ∧ Dict.get? st.S XU = some pu ∧ Dict.get? st.S XG = some pg ∧ Dict.get? st.S XNF = some pn ∧
        (∀ x ∈ pi, (trainValues K c.quad false).val (n.1.1, k) x ≤ 0) ∧ (∀ x ∈ pu, 0 ≤ (trainValues K c.quad false).val (n.1.1, k) x) ∧
        (∀ x ∈ pg, (trainValues K c.quad false).val (n.2, k) x ≤ 0) ∧ ∀ x ∈ pn, 0 ≤ (trainValues K c.quad false).val (n.2, k) x) := by
  unfold trainedLearn2 at h
  dsimp only at h
  split at h
  swap; · cases h
  rw [hc] at h
  dsimp only at h
  generalize hf : (if T.controlled = true then some (fun θ : (Net × Net) × K => dynNum θ.2) else none) = f at h
  cases hr : rarLearn T.symmetric (trainValuesV K c.quad) (trainValuesB K c.quad) f (T.step st.iters) st.S st.Sdot ((st.net.1.1, st.net.2), st.ctrl) with
  | error e => rw [hr] at h; cases h
  | ok r =>
    rw [hr] at h
    obtain ⟨⟨⟨V, B⟩, k'⟩, m⟩ := r
    cases h
    unfold rarLearn at hr
    split at hr
    swap; · cases hr
    obtain ⟨h1, h2, h3, h4⟩ := twiceLoop_spec _ _ _ _ _ _ hr
    refine ⟨m, h1, h2, h3, fun hlt => ?_⟩
    obtain ⟨a, ha, hok⟩ := h4 hlt m (Or.inl rfl)
    rw [← h3] at ha
    exact rarPass_values ha hok

theorem steps_usable2 {R K : Type} {w : World R K ((Net × ℚ) × Net)} {c : SynthCfg} {T : Trainer2 K} {net ctrl S j st} (hc : c.cert = .RAR)
    (hstep : ∀ i t θ, Usable c.lib c.nVars θ.1.1 ∧ Usable c.lib c.nVars θ.1.2 → Usable c.lib c.nVars (T.step i t θ).1.1 ∧ Usable c.lib c.nVars (T.step i t θ).1.2)
    (hnet : Usable c.lib c.nVars net.1.1 ∧ Usable c.lib c.nVars net.2)
    (hs : Steps c.loop (doubleComponents w c (trainedLearn2 T c w.dynNum)) (initState (doubleComponents w c (trainedLearn2 T c w.dynNum)) net ctrl S) j st) :
    Usable c.lib c.nVars st.net.1.1 ∧ Usable c.lib c.nVars st.net.2 := by
  generalize hi : initState (doubleComponents w c (trainedLearn2 T c w.dynNum)) net ctrl S = s0 at hs
  induction hs with
  | refl => subst hi; exact hnet
  | @tail k0 st' st'' _ hb ih =>
    obtain ⟨k, hk⟩ := loopBody_net hb
    obtain ⟨m, -, -, hm, -⟩ := trained_rar hc hk
    have := afterSteps_usable2 (hstep st'.iters) ((st'.net.1.1, st'.net.2), st'.ctrl) ih m
    rw [← hm] at this
    exact this

/-- **C75 (progress, reach-avoid-remain).** Whatever the order of the data dictionary: when training ends before the step limit, the new networks satisfy the
value conditions at every counterexample ever found — the reach function is non-positive at those of the initial set and non-negative at those of the unsafe
set, the barrier function non-positive at those of the goal set and non-negative at those outside the final set. -/
theorem C75_progress_rar {R K : Type} (w : World R K ((Net × ℚ) × Net)) (c : SynthCfg) (T : Trainer2 K) (hc : c.cert = .RAR)
    (hstep : ∀ i t θ, Usable c.lib c.nVars θ.1.1 ∧ Usable c.lib c.nVars θ.1.2 → Usable c.lib c.nVars (T.step i t θ).1.1 ∧ Usable c.lib c.nVars (T.step i t θ).1.2)
    (net : (Net × ℚ) × Net) (ctrl : K) (S : Dict String (List (List ℚ))) (hnet : Usable c.lib c.nVars net.1.1 ∧ Usable c.lib c.nVars net.2) (j k : ℕ) (st st1 st2)
    (h1 : Steps c.loop (doubleComponents w c (trainedLearn2 T c w.dynNum)) (initState (doubleComponents w c (trainedLearn2 T c w.dynNum)) net ctrl S) j st)
    (h2 : loopBody c.loop (doubleComponents w c (trainedLearn2 T c w.dynNum)) st = .ok (false, st1))
    (h3 : Steps c.loop (doubleComponents w c (trainedLearn2 T c w.dynNum)) st1 k st2)
    (n' : (Net × ℚ) × Net) (k' : K) (h4 : trainedLearn2 T c w.dynNum st2 = .ok (n', k')) :
    ∃ m, 1 ≤ m ∧ m ≤ 1000 ∧ ((n'.1.1, n'.2), k') = afterSteps (T.step st2.iters) m ((st2.net.1.1, st2.net.2), st2.ctrl) ∧
      (m < 1000 → ∀ x (p : Pt c.nVars), coordList p = realRow x →
        (Refuted (doubleComponents w c (trainedLearn2 T c w.dynNum)) st XI x → certValue (-1) c.quad n'.1.1 p ≤ 0) ∧
        (Refuted (doubleComponents w c (trainedLearn2 T c w.dynNum)) st XU x → 0 ≤ certValue (-1) c.quad n'.1.1 p) ∧
        (Refuted (doubleComponents w c (trainedLearn2 T c w.dynNum)) st XG x → certValue (-1) c.quad n'.2 p ≤ 0) ∧
        (Refuted (doubleComponents w c (trainedLearn2 T c w.dynNum)) st XNF x → 0 ≤ certValue (-1) c.quad n'.2 p)) := by
  have hsall : Steps c.loop (doubleComponents w c (trainedLearn2 T c w.dynNum))
      (initState (doubleComponents w c (trainedLearn2 T c w.dynNum)) net ctrl S) (j + 1 + k) st2 := by
    clear h4
    induction h3 with
    | refl => exact .tail h1 h2
    | tail _ hb ih => exact .tail ih hb
  have hus := steps_usable2 hc hstep hnet hsall
  obtain ⟨m, m1, m2, m3, m4⟩ := trained_rar hc h4
  have hn' := afterSteps_usable2 (hstep st2.iters) ((st2.net.1.1, st2.net.2), st2.ctrl) hus m
  rw [← m3] at hn'
  refine ⟨m, m1, m2, m3, fun hlt x p hp => ?_⟩
  obtain ⟨pi, pu, pg, pn, gi, gu, gg, gn, a1, a2, a3, a4⟩ := m4 hlt
  have ev := val_certValue hn'.1.1 c.quad false k' hp
  have eb := val_certValue hn'.2.1 c.quad false k' hp
  simp only [Bool.not_false, Bool.and_true] at ev eb
  rw [← ev, ← eb]
  exact ⟨fun h => a1 x (refuted_in_data2 double_cex_nodup h2 h3 h gi), fun h => a2 x (refuted_in_data2 double_cex_nodup h2 h3 h gu),
    fun h => a3 x (refuted_in_data2 double_cex_nodup h2 h3 h gg), fun h => a4 x (refuted_in_data2 double_cex_nodup h2 h3 h gn)⟩

/-! ### examples -/

/-- A trainer of two networks that changes nothing, without controller. -/
def exTrainer2 : Trainer2 Unit := ⟨fun _ _ θ => θ, false, true, fun _ => 0⟩

theorem exSatWorld_fair2 : FairWorld (exSatWorld 1 ((Net × ℚ) × Net) [.neg (.var 0)]) 1 where
  dyn _ := rfl
  num _ x hx := by simpa [exSatWorld] using hx
  val i k φ _ := exSatWorld_val _ _ _ i k φ
  cons _ _ _ _ := ⟨[], rfl, fun _ => rfl, fun r hr => by cases hr⟩

/-- Data of a RAR problem, not in the order of the labels. -/
def exRARData : Dict String (List (List ℚ)) := [(XNF, [[1], [2]]), (XD, [[1/2]]), (XI, [[1/2]]), (XU, [[1]]), (XG, [[0]]), (XF, [[0]])]

theorem exRARNets_usable : Usable .z3 1 exRAR.net ∧ Usable .z3 1 exRARNet := by
  constructor
  · refine ⟨⟨rfl, by simp [exRAR, exReach, shapedFrom], by simp [exRAR, exReach], ⟨_, rfl, rfl⟩⟩, ?_⟩
    intro a ha
    simp [usedActs, exRAR, exReach] at ha
    subst ha
    rfl
  · refine ⟨⟨rfl, by simp [exRARNet, shapedFrom], by simp [exRARNet], ⟨_, rfl, rfl⟩⟩, ?_⟩
    intro a ha
    simp [usedActs, exRARNet] at ha
    subst ha
    rfl

theorem exRunRAR_sets : UsableSets exRunRAR.nVars exRunRAR.domains ∧ ∀ l ∈ setsOf exRunRAR.cert, ∃ S, Dict.get? exRunRAR.domains l = some S := by
  constructor
  · intro e he
    simp only [exRunRAR, exRAR, List.mem_cons, List.not_mem_nil, or_false] at he
    rcases he with rfl | rfl | rfl | rfl | rfl | rfl <;> simp [WF, exRunRAR, noSel, BoundaryOK]
  · intro l hl
    simp only [exRunRAR, setsOf, List.mem_cons, List.not_mem_nil, or_false] at hl
    rcases hl with rfl | rfl | rfl | rfl | rfl | rfl <;> exact ⟨_, rfl⟩

theorem exRARData_rows : ∀ l p, Dict.get? exRARData l = some p → p ≠ [] ∧ ∀ r ∈ p, r.length = 1 := by
  intro l p hp
  have hm := Dict.get?_eq_some_mem hp
  simp only [exRARData, List.mem_cons, Prod.mk.injEq, List.not_mem_nil, or_false] at hm
  rcases hm with ⟨-, rfl⟩ | ⟨-, rfl⟩ | ⟨-, rfl⟩ | ⟨-, rfl⟩ | ⟨-, rfl⟩ | ⟨-, rfl⟩ <;> simp

theorem exRARData_checked : assertState .RAR [XD, XI, XS, XSB, XG, XF, XNF] (Dict.keys exRARData) = .ok () := by decide +kernel

/-- Non-vacuity of `C75_run_total`, reach-avoid-remain. -/
example : ∃ out, Solves exRunRAR.loop (doubleComponents (exSatWorld 1 _ [.neg (.var 0)]) exRunRAR
    (trainedLearn2 exTrainer2 exRunRAR (exSatWorld 1 ((Net × ℚ) × Net) [.neg (.var 0)]).dynNum)) ((exRAR.net, 0), exRARNet) () exRARData out ∧ (out.iters : ℤ) ≤ 8 := by
  exact C75_run_total_checked (exSatWorld 1 _ [.neg (.var 0)]) exRunRAR exTrainer2 (Or.inl rfl) (Or.inr rfl) (by decide) exRunRAR_sets.1 exRunRAR_sets.2 exSatWorld_fair2
    (fun _ _ _ h => h) _ _ _ exRARNets_usable (by decide) exRARData_rows _ exRARData_checked

/-- A stable-safe problem in dimension 1. -/
def exStableCfg : SynthCfg := { exSafeCfg with cert := .STABLESAFE }

/-- Its data, with the optional label XR, unsafe samples first. -/
def exStableData : Dict String (List (List ℚ)) := [(XU, [[3]]), (XR, [[1/4], [1/5]]), (XD, [[1/2]]), (XI, [[1/2]])]

/-- Non-vacuity of `C75_run_total`, stable-safe. -/
example : ∃ out, Solves exStableCfg.loop (doubleComponents (exSatWorld 1 _ [.neg (.var 0)]) exStableCfg
    (trainedLearn2 exTrainer2 exStableCfg (exSatWorld 1 ((Net × ℚ) × Net) [.neg (.var 0)]).dynNum)) ((exLyap.net, 0), exRARNet) () exStableData out ∧ (out.iters : ℤ) ≤ 8 := by
  refine C75_run_total (exSatWorld 1 _ [.neg (.var 0)]) exStableCfg exTrainer2 (Or.inl rfl) (Or.inl rfl) (by decide) exSafe_sets.1 exSafe_sets.2 exSatWorld_fair2
    (fun _ _ _ h => h) _ _ _ ⟨exLyapNet_usable, exRARNets_usable.2⟩ (by decide) ?_ ?_ (fun h => by cases h) ?_
  · intro l p hp
    have hm := Dict.get?_eq_some_mem hp
    simp only [exStableData, List.mem_cons, Prod.mk.injEq, List.not_mem_nil, or_false] at hm
    rcases hm with ⟨-, rfl⟩ | ⟨-, rfl⟩ | ⟨-, rfl⟩ | ⟨-, rfl⟩ <;> simp [exStableCfg, exSafeCfg]
  · intro l hl
    simp only [exStableCfg, exSafeCfg, trainLabels, List.mem_cons, List.not_mem_nil, or_false] at hl
    simp only [exStableData, Dict.keys, List.map_cons, List.map_nil, List.mem_cons, List.not_mem_nil, or_false]
    tauto
  · intro l hl
    simp only [exStableData, Dict.keys, List.map_cons, List.map_nil, List.mem_cons, List.not_mem_nil, or_false] at hl
    rcases hl with rfl | rfl | rfl | rfl <;> intro h
    · exact absurd h (by decide)
    · exact absurd h (by decide)
    · rfl
    · exact absurd h (by decide)

/-- Non-vacuity of the label checks of `C75_run_total_checked`: the data of the examples pass. -/
example : assertState .RAR [XD, XI, XS, XSB, XG, XF, XNF] (Dict.keys exRARData) = .ok () ∧ assertState .STABLESAFE [XD, XI, XU] (Dict.keys exStableData) = .ok () ∧
    assertState .BARRIER [XD, XI, XU] (Dict.keys exSafeData) = .ok () := by decide +kernel

/-- Non-vacuity of `C75_progress_rar`: in the same problem, the point 1 is a counterexample for the initial set in the first pass, and the second training call
returns. -/
example : ∃ st st1 n' k', Steps exRunRAR.loop (doubleComponents (exSatWorld 1 _ [.neg (.var 0)]) exRunRAR
      (trainedLearn2 exTrainer2 exRunRAR (exSatWorld 1 ((Net × ℚ) × Net) [.neg (.var 0)]).dynNum))
      (initState (doubleComponents (exSatWorld 1 _ [.neg (.var 0)]) exRunRAR
        (trainedLearn2 exTrainer2 exRunRAR (exSatWorld 1 ((Net × ℚ) × Net) [.neg (.var 0)]).dynNum)) ((exRAR.net, 0), exRARNet) () exRARData) 0 st ∧
    loopBody exRunRAR.loop (doubleComponents (exSatWorld 1 _ [.neg (.var 0)]) exRunRAR
      (trainedLearn2 exTrainer2 exRunRAR (exSatWorld 1 ((Net × ℚ) × Net) [.neg (.var 0)]).dynNum)) st = .ok (false, st1) ∧
    Refuted (doubleComponents (exSatWorld 1 _ [.neg (.var 0)]) exRunRAR
      (trainedLearn2 exTrainer2 exRunRAR (exSatWorld 1 ((Net × ℚ) × Net) [.neg (.var 0)]).dynNum)) st XI [1] ∧
    trainedLearn2 exTrainer2 exRunRAR (exSatWorld 1 ((Net × ℚ) × Net) [.neg (.var 0)]).dynNum st1 = .ok (n', k') := by
  set w := exSatWorld 1 ((Net × ℚ) × Net) [.neg (.var 0)] with hw
  set C := doubleComponents w exRunRAR (trainedLearn2 exTrainer2 exRunRAR w.dynNum) with hC
  set st := initState C ((exRAR.net, 0), exRARNet) () exRARData with hst
  obtain ⟨l1, l2, l3⟩ := checked_labels (ct := .RAR) (by decide) exRARData_checked
  have hready : RunReady2 exRunRAR st := by
    refine ⟨exRARNets_usable, initState_data (fun x hx => exSatWorld_fair2.num () x hx) (fun l p hp => (exRARData_rows l p hp).2) (fun l hl => ?_) l3,
      (by decide : (Dict.keys exRARData).Nodup), fun l p hp => (exRARData_rows l p hp).1, l2⟩
    obtain ⟨p, hp⟩ := Option.isSome_iff_exists.1 (Dict.get?_isSome_iff.2 (l1 l hl))
    exact ⟨p, hp, (exRARData_rows l p hp).1⟩
  obtain ⟨n1, k1, hl, hn1⟩ := trainedLearn2_total exTrainer2 exRunRAR w.dynNum (Or.inr rfl) (fun _ _ _ h => h) st hready.1 hready.2
  obtain ⟨m, -, -, hm, -⟩ := trained_rar rfl hl
  have hid : ∀ m θ, afterSteps (exTrainer2.step st.iters) m θ = θ := by
    intro m θ
    induction m with
    | zero => rfl
    | succ m ih => exact ih
  rw [hid] at hm
  obtain ⟨⟨net1, b1⟩, net2⟩ := n1
  have hnet : net1 = exRAR.net := congrArg (fun θ => θ.1.1) hm
  have hnet2 : net2 = exRARNet := congrArg (fun θ => θ.1.2) hm
  subst hnet hnet2
  obtain ⟨V, Vdot, cex, ht, hv, hx⟩ : ∃ V Vdot cex, C.translate ((exRAR.net, b1), exRARNet) k1 = .ok (V, Vdot) ∧
      C.verify st.iters ((exRAR.net, b1), exRARNet) V Vdot = .ok (false, cex) ∧
      ∃ rows, Dict.get? cex XI = some rows ∧ [1] ∈ rows := ⟨_, _, _, rfl, rfl, _, rfl, List.mem_append.2 (Or.inr (List.mem_singleton.2 rfl))⟩
  obtain ⟨b, st1, hb1, hb2⟩ := pass_ready2 w exRunRAR exTrainer2 (Or.inl rfl) (Or.inr rfl) exRunRAR_sets.1 exRunRAR_sets.2 exSatWorld_fair2 (fun _ _ _ h => h) st hready
  cases b with
  | true =>
    obtain ⟨n, kk, V', Vdot', found, cex', traj, s2, q1, q2, q3, -, -, q5⟩ := loopBody_inv hb1
    rw [show C.learn st = .ok (((exRAR.net, b1), exRARNet), k1) from hl] at q1
    cases q1
    rw [ht] at q2
    cases q2
    rw [hv] at q3
    cases q3
    simp only [Bool.false_eq_true, if_false] at q5
    have e1 : st.timedOut = false := rfl
    rw [if_neg (by rw [e1]; decide), if_neg (by rw [show st.iters = 0 from rfl]; decide)] at q5
    exact absurd q5.1 (by decide)
  | false =>
    obtain ⟨rows, hr, hm1⟩ := hx
    obtain ⟨n', k', h', -⟩ := trainedLearn2_total exTrainer2 exRunRAR w.dynNum (Or.inr rfl) (fun _ _ _ h => h) st1 hb2.1 hb2.2
    exact ⟨st, st1, n', k', .refl _, hb1, ⟨_, _, V, Vdot, cex, rows, hl, ht, hv, hr, hm1⟩, h'⟩

/-- Non-vacuity of `C75_rar_extra_label`: the data of the example with samples of the safe set. -/
example (v b : Values Unit (List ℚ)) : rarLearn true v b none (fun _ θ => θ) ((XS, [[2]]) :: exRARData) ((XS, [[2]]) :: exRARData) () = .error .assertionError := by
  refine C75_rar_extra_label true v b _ _ _ () (by decide) ?_ rfl rfl XS [[2]] (by decide) rfl (by simp)
  intro l hl
  simp only [trainLabels, List.mem_cons, List.not_mem_nil, or_false] at hl
  simp only [exRARData, Dict.keys, List.map_cons, List.map_nil, List.mem_cons, List.not_mem_nil, or_false]
  tauto

end Fossil
