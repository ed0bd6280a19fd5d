/-
C36: which samples the training loops use for which condition.
-/
import Verif.Props.C44_Accuracy

namespace Fossil

namespace Spec

/-- The data of label `l`: samples `p` and the dynamics values `d` of exactly these samples. When a controller is trained
(`f` given) the stored values are not used. -/
structure Labelled {Θ P : Type} (f : Option (Θ → P → P)) (S Sdot : Dict String (List P)) (l : String) (p d : List P) : Prop where
  samples : Dict.get S l = .ok p
  stored : f = none → Dict.get Sdot l = .ok d ∧ d.length = p.length

/-- Certificate values at samples. -/
noncomputable def valsAt {Θ P : Type} (v : Values Θ P) (θ : Θ) (p : List P) : List ℝ := p.map (v.val θ)

/-- Derivatives at samples with dynamics values `d`. -/
noncomputable def liesAt {Θ P : Type} (v : Values Θ P) (θ : Θ) (p d : List P) : List ℝ :=
  (p.zip d).map (fun q => v.lie θ q.1 q.2)

end Spec

open Spec

variable {Θ P : Type}

theorem zipWith_liesAt (v : Values Θ P) (θ : Θ) (p d : List P) : List.zipWith (v.lie θ) p d = liesAt v θ p d := by
  simp [liesAt, List.zip, List.map_zipWith]

theorem derivs_length {f : Option (Θ → P → P)} {S Sdot : Dict String (List P)} {l : String} {p d : List P}
    (h : Labelled f S Sdot l p d) (θ : Θ) : (derivs f θ p d).length = p.length := by
  cases f with
  | none => exact (h.stored rfl).2
  | some f => simp [derivs]

theorem derivs_append (f : Option (Θ → P → P)) (θ : Θ) (p p' d d' : List P) :
    derivs f θ (p ++ p') (d ++ d') = derivs f θ p d ++ derivs f θ p' d' := by
  cases f <;> simp [derivs]

theorem liesAt_append (v : Values Θ P) (θ : Θ) {p d : List P} (p' d' : List P) (h : p.length = d.length) :
    liesAt v θ (p ++ p') (d ++ d') = liesAt v θ p d ++ liesAt v θ p' d' := by
  simp [liesAt, List.zip_append h]

theorem valsAt_append (v : Values Θ P) (θ : Θ) (p p' : List P) : valsAt v θ (p ++ p') = valsAt v θ p ++ valsAt v θ p' := by
  simp [valsAt]

@[simp] theorem valsAt_length (v : Values Θ P) (θ : Θ) (p : List P) : (valsAt v θ p).length = p.length := by simp [valsAt]

theorem liesAt_length (v : Values Θ P) (θ : Θ) {p d : List P} (h : p.length = d.length) : (liesAt v θ p d).length = p.length := by
  simp [liesAt, h]

theorem slice_append_left {α : Type} (a b c : List α) {i j : ℕ} (hi : i = a.length) (hj : j = a.length + b.length) :
    slice i j (a ++ (b ++ c)) = b := by
  subst hi hj
  unfold slice
  rw [List.take_append]
  simp [List.take_append]

theorem slice_zero_append {α : Type} (a b : List α) {j : ℕ} (hj : j = a.length) : slice 0 j (a ++ b) = a := by
  subst hj; simp [slice]

theorem catLabels_ok {S : Dict String (List P)} {l : String} {ls : List String} {p q : List P}
    (h : Dict.get S l = .ok p) (h' : catLabels S ls = .ok q) : catLabels S (l :: ls) = .ok (p ++ q) := by
  simp [catLabels, h, h', bind, Except.bind, pure, Except.pure]

theorem samplesDot_ok {f : Option (Θ → P → P)} {θ : Θ} {p d : List P} {st : Except Err (List P)} (h : f = none → st = .ok d) :
    samplesDot f θ p st = .ok (derivs f θ p d) := by
  cases f with
  | none => simp [samplesDot, derivs, h rfl]
  | some f => simp [samplesDot, derivs]

theorem getAll_ok (v : Values Θ P) (θ : Θ) {p d : List P} (h : p.length = d.length) :
    getAll v θ p d = .ok (valsAt v θ p, liesAt v θ p d) := by
  simp [getAll, h, valsAt, zipWith_liesAt]

/-- **C36 (Barrier, BarrierAlt, RWS).** Whatever the order of the data dictionary and the sizes of the data sets: the values at the
samples of XI are used as initial, of XU as unsafe, and those of XD, with their own derivatives, for the derivative condition. -/
theorem C36_barrier_labels (acc : List ℝ → List ℝ → List ℝ → List ℝ → Except Err (ℚ × ℚ)) (v : Values Θ P)
    (f : Option (Θ → P → P)) (S Sdot : Dict String (List P)) (θ : Θ) (pd pi pu dd di du : List P)
    (hd : Labelled f S Sdot XD pd dd) (hi : Labelled f S Sdot XI pi di) (hu : Labelled f S Sdot XU pu du) :
    barrierPass acc v f S Sdot θ =
      acc (valsAt v θ pi) (valsAt v θ pu) (valsAt v θ pd) (liesAt v θ pd (derivs f θ pd dd)) := by
  have hc : catLabels S [XD, XI, XU] = .ok (pd ++ (pi ++ (pu ++ []))) :=
    catLabels_ok hd.samples (catLabels_ok hi.samples (catLabels_ok hu.samples rfl))
  have hs := samplesDot_ok (f := f) (θ := θ) (p := pd ++ (pi ++ (pu ++ []))) (d := dd ++ (di ++ (du ++ [])))
    (st := catLabels Sdot [XD, XI, XU])
    (fun hf => catLabels_ok (hd.stored hf).1 (catLabels_ok (hi.stored hf).1 (catLabels_ok (hu.stored hf).1 rfl)))
  have e : derivs f θ (pd ++ (pi ++ (pu ++ []))) (dd ++ (di ++ (du ++ []))) =
      derivs f θ pd dd ++ (derivs f θ pi di ++ (derivs f θ pu du ++ derivs f θ [] [])) := by simp only [derivs_append]
  have l1 := derivs_length hd θ
  have l2 := derivs_length hi θ
  have l3 := derivs_length hu θ
  have l0 : (derivs f θ ([] : List P) []).length = 0 := by cases f <;> rfl
  unfold barrierPass
  simp only [hd.samples, hi.samples, hc, hs, bind, Except.bind]
  rw [getAll_ok v θ (by rw [e]; simp [l1, l2, l3, l0])]
  simp only [e, valsAt_append]
  rw [liesAt_append v θ _ _ l1.symm]
  congr 1
  · exact slice_append_left _ _ _ (by simp) (by simp)
  · rw [← List.append_assoc, List.drop_left' (by simp)]; simp [valsAt]
  · exact List.take_left' (by simp)
  · exact List.take_left' (by simp [liesAt, l1])

/-- **C36 (RSWS).** The same for the five labels of the reach-and-stay-while-stay certificate; the goal-border samples must be non-empty. -/
theorem C36_rsws_labels (v : Values Θ P)
    (f : Option (Θ → P → P)) (S Sdot : Dict String (List P)) (θ : Θ) (pd pi pu pb pg dd di du db dg : List P)
    (hd : Labelled f S Sdot XD pd dd) (hi : Labelled f S Sdot XI pi di) (hu : Labelled f S Sdot XU pu du)
    (hb : Labelled f S Sdot XGB pb db) (hg : Labelled f S Sdot XG pg dg) :
    (pb ≠ [] → rswsPass v f S Sdot θ =
      rwsAcc (valsAt v θ pi) (valsAt v θ pu) (valsAt v θ pd) (liesAt v θ pd (derivs f θ pd dd))) ∧
    (pb = [] → ∃ e, rswsPass v f S Sdot θ = .error e) := by
  have hc : catLabels S [XD, XI, XU, XGB, XG] = .ok (pd ++ (pi ++ (pu ++ (pb ++ (pg ++ []))))) :=
    catLabels_ok hd.samples (catLabels_ok hi.samples (catLabels_ok hu.samples (catLabels_ok hb.samples (catLabels_ok hg.samples rfl))))
  have hs := samplesDot_ok (f := f) (θ := θ) (p := pd ++ (pi ++ (pu ++ (pb ++ (pg ++ [])))))
    (d := dd ++ (di ++ (du ++ (db ++ (dg ++ []))))) (st := catLabels Sdot [XD, XI, XU, XGB, XG])
    (fun hf => catLabels_ok (hd.stored hf).1 (catLabels_ok (hi.stored hf).1 (catLabels_ok (hu.stored hf).1
      (catLabels_ok (hb.stored hf).1 (catLabels_ok (hg.stored hf).1 rfl)))))
  have e : derivs f θ (pd ++ (pi ++ (pu ++ (pb ++ (pg ++ []))))) (dd ++ (di ++ (du ++ (db ++ (dg ++ []))))) =
      derivs f θ pd dd ++ (derivs f θ pi di ++ (derivs f θ pu du ++ (derivs f θ pb db ++ (derivs f θ pg dg ++ derivs f θ [] [])))) := by
    simp only [derivs_append]
  have l1 := derivs_length hd θ
  have l2 := derivs_length hi θ
  have l3 := derivs_length hu θ
  have l4 := derivs_length hb θ
  have l5 := derivs_length hg θ
  have l0 : (derivs f θ ([] : List P) []).length = 0 := by cases f <;> rfl
  have hsl : slice (pd.length + pi.length + pu.length) (pd.length + pi.length + pu.length + pb.length)
      (pd ++ (pi ++ (pu ++ (pb ++ (pg ++ []))))) = pb := by
    have := slice_append_left (pd ++ (pi ++ pu)) pb (pg ++ []) (i := pd.length + pi.length + pu.length)
      (j := pd.length + pi.length + pu.length + pb.length) (by simp; omega) (by simp; omega)
    simpa using this
  have hrw : rswsPass v f S Sdot θ = (rwsAcc (valsAt v θ pi) (valsAt v θ pu) (valsAt v θ pd) (liesAt v θ pd (derivs f θ pd dd))).bind
      (fun a => (computeMaximum (fun p => - v.val θ p) pb).bind (fun _ => .ok a)) := by
    unfold rswsPass
    simp only [hd.samples, hi.samples, hu.samples, hb.samples, hg.samples, hc, hs, bind, Except.bind]
    rw [getAll_ok v θ (by rw [e]; simp [l1, l2, l3, l4, l5, l0])]
    simp only [e, valsAt_append, hsl]
    rw [liesAt_append v θ _ _ l1.symm, slice_append_left _ _ _ (by simp) (by simp),
      List.take_left' (by simp), List.take_left' (by simp [liesAt, l1])]
    have := slice_append_left (valsAt v θ pd ++ valsAt v θ pi) (valsAt v θ pu) (valsAt v θ pb ++ (valsAt v θ pg ++ valsAt v θ []))
      (i := pd.length + pi.length) (j := pd.length + pi.length + pu.length) (by simp) (by simp)
    rw [List.append_assoc] at this
    rw [this]
    rfl
  rw [hrw]
  constructor
  · intro hne
    cases pb with
    | nil => exact absurd rfl hne
    | cons p ps =>
      cases rwsAcc (valsAt v θ pi) (valsAt v θ pu) (valsAt v θ pd) (liesAt v θ pd (derivs f θ pd dd)) <;>
        simp [computeMaximum, Except.bind]
  · rintro rfl
    cases rwsAcc (valsAt v θ pi) (valsAt v θ pu) (valsAt v θ pd) (liesAt v θ pd (derivs f θ pd dd)) with
    | error e => exact ⟨e, rfl⟩
    | ok a => exact ⟨.indexError, rfl⟩

/-- **C36 (StableSafe), without a separate stability data set.** The attribution is right when the data dictionary lists XD, XI, XU in
this order. -/
theorem C36_stablesafe_labels_partial (llo sym : Bool) (v b : Values Θ P) (f : Option (Θ → P → P)) (θ : Θ)
    (pd pi pu dd di du : List P)
    (hl : f = none → dd.length = pd.length ∧ di.length = pi.length ∧ du.length = pu.length) :
    safeRoaPass llo sym v b f [(XD, pd), (XI, pi), (XU, pu)] [(XD, dd), (XI, di), (XU, du)] θ = (do
      let la ← roaAcc llo (valsAt v θ pd) (liesAt v θ pd (derivs f θ pd dd))
      let (iu, belt) ← barrierAcc sym (valsAt b θ pi) (valsAt b θ pu) (valsAt b θ pd) (liesAt b θ pd (derivs f θ pd dd))
      return (la, iu, belt)) := by
  have l1 : (derivs f θ pd dd).length = pd.length := by
    cases f with
    | none => exact (hl rfl).1
    | some f => simp [derivs]
  have l2 : (derivs f θ pi di).length = pi.length := by
    cases f with
    | none => exact (hl rfl).2.1
    | some f => simp [derivs]
  have l3 : (derivs f θ pu du).length = pu.length := by
    cases f with
    | none => exact (hl rfl).2.2
    | some f => simp [derivs]
  have hs := samplesDot_ok (f := f) (θ := θ) (p := pd ++ (pi ++ (pu ++ []))) (d := dd ++ (di ++ (du ++ [])))
    (st := .ok (dd ++ (di ++ (du ++ [])))) (fun _ => rfl)
  have l0 : (derivs f θ ([] : List P) []).length = 0 := by cases f <;> rfl
  simp only [derivs_append] at hs
  have g1 : Dict.get [(XD, pd), (XI, pi), (XU, pu)] XD = .ok pd := rfl
  have g2 : Dict.get [(XD, pd), (XI, pi), (XU, pu)] XI = .ok pi := rfl
  have g3 : Dict.get [(XD, pd), (XI, pi), (XU, pu)] XU = .ok pu := rfl
  have g4 : Dict.get? [(XD, pd), (XI, pi), (XU, pu)] XR = none := rfl
  unfold safeRoaPass
  simp only [g1, g2, g3, g4, bind, Except.bind, catValues, Dict.values, List.map_cons, List.map_nil, List.flatten_cons,
    List.flatten_nil, hs]
  rw [slice_zero_append _ _ rfl, slice_zero_append _ _ l1.symm, getAll_ok v θ l1.symm,
    getAll_ok b θ (by simp [l1, l2, l3, l0])]
  simp only [valsAt_append]
  rw [liesAt_append b θ _ _ l1.symm, slice_append_left _ _ _ (by simp) (by simp), slice_zero_append _ _ (by simp),
    slice_zero_append _ _ (by rw [liesAt_length b θ l1.symm])]
  have := slice_append_left (valsAt b θ pd ++ valsAt b θ pi) (valsAt b θ pu) (valsAt b θ [])
    (i := pd.length + pi.length) (j := pd.length + pi.length + pu.length) (by simp) (by simp)
  rw [List.append_assoc] at this
  rw [this]

/-- **C36 (StableSafe), with a separate stability data set XR.** The attribution is right when the data dictionary lists XD, XR, XI, XU
in this order. -/
theorem C36_stablesafe_xr_labels_partial (llo sym : Bool) (v b : Values Θ P) (f : Option (Θ → P → P)) (θ : Θ)
    (pd pr pi pu dd dr di du : List P)
    (hl : f = none → dd.length = pd.length ∧ dr.length = pr.length ∧ di.length = pi.length ∧ du.length = pu.length) :
    safeRoaPass llo sym v b f [(XD, pd), (XR, pr), (XI, pi), (XU, pu)] [(XD, dd), (XR, dr), (XI, di), (XU, du)] θ = (do
      let la ← roaAcc llo (valsAt v θ pr) (liesAt v θ pr (derivs f θ pr dr))
      let (iu, belt) ← barrierAcc sym (valsAt b θ pi) (valsAt b θ pu) (valsAt b θ pd) (liesAt b θ pd (derivs f θ pd dd))
      return (la, iu, belt)) := by
  have l1 : (derivs f θ pd dd).length = pd.length := by
    cases f with
    | none => exact (hl rfl).1
    | some f => simp [derivs]
  have lr : (derivs f θ pr dr).length = pr.length := by
    cases f with
    | none => exact (hl rfl).2.1
    | some f => simp [derivs]
  have l2 : (derivs f θ pi di).length = pi.length := by
    cases f with
    | none => exact (hl rfl).2.2.1
    | some f => simp [derivs]
  have l3 : (derivs f θ pu du).length = pu.length := by
    cases f with
    | none => exact (hl rfl).2.2.2
    | some f => simp [derivs]
  have hs := samplesDot_ok (f := f) (θ := θ) (p := pd ++ (pr ++ (pi ++ (pu ++ [])))) (d := dd ++ (dr ++ (di ++ (du ++ []))))
    (st := .ok (dd ++ (dr ++ (di ++ (du ++ []))))) (fun _ => rfl)
  have l0 : (derivs f θ ([] : List P) []).length = 0 := by cases f <;> rfl
  simp only [derivs_append] at hs
  have g1 : Dict.get [(XD, pd), (XR, pr), (XI, pi), (XU, pu)] XD = .ok pd := rfl
  have g2 : Dict.get [(XD, pd), (XR, pr), (XI, pi), (XU, pu)] XI = .ok pi := rfl
  have g3 : Dict.get [(XD, pd), (XR, pr), (XI, pi), (XU, pu)] XU = .ok pu := rfl
  have g4 : Dict.get? [(XD, pd), (XR, pr), (XI, pi), (XU, pu)] XR = some pr := rfl
  unfold safeRoaPass
  simp only [g1, g2, g3, g4, bind, Except.bind, catValues, Dict.values, List.map_cons, List.map_nil, List.flatten_cons,
    List.flatten_nil, hs]
  rw [slice_append_left _ _ _ rfl rfl, slice_append_left _ _ _ l1.symm (by rw [l1, lr]), getAll_ok v θ lr.symm,
    getAll_ok b θ (by simp [l1, lr, l2, l3, l0])]
  simp only [valsAt_append]
  rw [liesAt_append b θ _ _ l1.symm, slice_zero_append _ _ (by simp),
    slice_zero_append _ _ (by rw [liesAt_length b θ l1.symm])]
  have h1 := slice_append_left (valsAt b θ pd ++ valsAt b θ pr) (valsAt b θ pi) (valsAt b θ pu ++ valsAt b θ [])
    (i := pd.length + pr.length) (j := pd.length + pr.length + pi.length) (by simp) (by simp)
  have h2 := slice_append_left (valsAt b θ pd ++ (valsAt b θ pr ++ valsAt b θ pi)) (valsAt b θ pu) (valsAt b θ [])
    (i := pd.length + pr.length + pi.length) (j := pd.length + pr.length + pi.length + pu.length) (by simp; omega) (by simp; omega)
  rw [List.append_assoc] at h1
  rw [List.append_assoc, List.append_assoc] at h2
  rw [h1, h2]

/-- The data of the next theorem: one sample per label, the dictionary in the order XI, XD, XU. -/
def exMisordered : Dict String (List ℝ) := [(XI, [1]), (XD, [-1]), (XU, [5])]

/-- **C36, the defect in StableSafe.** With the data dictionary in the order XI, XD, XU the domain sample is used as initial sample and
conversely: the pass reports 100 percent for all conditions although the initial sample 1 has barrier value 1 > 0. -/
theorem C36_stablesafe_misattributed :
    let v : Values Unit ℝ := ⟨fun _ x => x, fun _ _ _ => -1⟩
    safeRoaPass true false v v none exMisordered exMisordered () = .ok (100, 100, 100) ∧
    ∃ p, Dict.get exMisordered XI = .ok [p] ∧ ¬ v.val () p ≤ 0 := by
  refine ⟨?_, 1, rfl, by norm_num⟩
  have h1 : roaAcc true [(1:ℝ)] [-1] = .ok 100 := by
    rw [C44_roa_accuracy true [(1:ℝ)] [-1] (by simp) (by simp)]; simp
  have h2 : barrierAcc false [(-1:ℝ)] [5] [1] [-1] = .ok (100, 100) := by
    have h3 : initUnsafeAcc 0 [(-1:ℝ)] [5] = .ok 100 := by rw [C44_init_unsafe_accuracy]; norm_num
    have h4 : beltVals false [(1:ℝ)] [-1] = [-1] := by simp [beltVals]
    simp [barrierAcc, h3, h4, bind, Except.bind, pure, Except.pure, countNonzero]
  have e : safeRoaPass true false (⟨fun _ x => x, fun _ _ _ => -1⟩ : Values Unit ℝ) ⟨fun _ x => x, fun _ _ _ => -1⟩ none exMisordered
      exMisordered () = (do
        let la ← roaAcc true [(1:ℝ)] [-1]
        let (iu, belt) ← barrierAcc false [(-1:ℝ)] [5] [1] [-1]
        return (la, iu, belt)) := rfl
  rw [e, h1, h2]
  rfl

/-- **C36 (ReachAvoidRemain).** The reach-avoid part uses XD, XI, XU; the barrier of the remain part treats XG as initial, XNF as
unsafe and XG, XF, XNF together for the belt. With a trained controller this holds for every dictionary order; with stored
derivatives it needs the derivative dictionary to be in the order XD, XI, XU, XG, XF, XNF. -/
theorem C36_rar_labels_partial (sym : Bool) (v b : Values Θ P)
    (f : Option (Θ → P → P)) (S Sdot : Dict String (List P)) (θ : Θ) (pd pi pu pg pf pn dd di du dg df dn : List P)
    (hd : Labelled f S Sdot XD pd dd) (hi : Labelled f S Sdot XI pi di) (hu : Labelled f S Sdot XU pu du)
    (hg : Labelled f S Sdot XG pg dg) (hf : Labelled f S Sdot XF pf df) (hn : Labelled f S Sdot XNF pn dn)
    (hord : f = none → Sdot = [(XD, dd), (XI, di), (XU, du), (XG, dg), (XF, df), (XNF, dn)]) :
    rarPass sym v b f S Sdot θ = (do
      let a ← rwsAcc (valsAt v θ pi) (valsAt v θ pu) (valsAt v θ pd) (liesAt v θ pd (derivs f θ pd dd))
      let c ← barrierAcc sym (valsAt b θ pg) (valsAt b θ pn) (valsAt b θ (pg ++ pf ++ pn))
        (liesAt b θ (pg ++ pf ++ pn) (derivs f θ (pg ++ pf ++ pn) (dg ++ df ++ dn)))
      return (a, c)) := by
  have hc : catLabels S [XD, XI, XU, XG, XF, XNF] = .ok (pd ++ (pi ++ (pu ++ (pg ++ (pf ++ (pn ++ [])))))) :=
    catLabels_ok hd.samples (catLabels_ok hi.samples (catLabels_ok hu.samples (catLabels_ok hg.samples
      (catLabels_ok hf.samples (catLabels_ok hn.samples rfl)))))
  have hs := samplesDot_ok (f := f) (θ := θ) (p := pd ++ (pi ++ (pu ++ (pg ++ (pf ++ (pn ++ []))))))
    (d := dd ++ (di ++ (du ++ (dg ++ (df ++ (dn ++ [])))))) (st := .ok (catValues Sdot))
    (fun h => by rw [hord h]; rfl)
  simp only [derivs_append] at hs
  have l1 := derivs_length hd θ
  have l2 := derivs_length hi θ
  have l3 := derivs_length hu θ
  have l4 := derivs_length hg θ
  have l5 := derivs_length hf θ
  have l6 := derivs_length hn θ
  have l0 : (derivs f θ ([] : List P) []).length = 0 := by cases f <;> rfl
  have hlen : (pd ++ (pi ++ (pu ++ (pg ++ (pf ++ (pn ++ [])))))).length = (derivs f θ pd dd ++ (derivs f θ pi di ++
      (derivs f θ pu du ++ (derivs f θ pg dg ++ (derivs f θ pf df ++ (derivs f θ pn dn ++ derivs f θ [] [])))))).length := by
    simp [l1, l2, l3, l4, l5, l6, l0]
  unfold rarPass
  simp only [hd.samples, hi.samples, hu.samples, hg.samples, hf.samples, hn.samples, hc, hs, bind, Except.bind,
    getAll_ok v θ hlen, getAll_ok b θ hlen]
  have sl : ∀ {α : Type} (x0 x1 x2 x3 x4 x5 x6 : List α), x0.length = pd.length → x1.length = pi.length → x2.length = pu.length →
      x3.length = pg.length → x4.length = pf.length → x5.length = pn.length →
      let x := x0 ++ (x1 ++ (x2 ++ (x3 ++ (x4 ++ (x5 ++ x6)))))
      slice 0 pd.length x = x0 ∧ slice pd.length (pd.length + pi.length) x = x1 ∧
      slice (pd.length + pi.length) (pd.length + pi.length + pu.length) x = x2 ∧
      slice (pd.length + pi.length + pu.length) (pd.length + pi.length + pu.length + pg.length) x = x3 ∧
      slice (pd.length + pi.length + pu.length + pg.length + pf.length)
        (pd.length + pi.length + pu.length + pg.length + pf.length + pn.length) x = x5 ∧
      slice (pd.length + pi.length + pu.length)
        (pd.length + pi.length + pu.length + pg.length + pf.length + pn.length) x = x3 ++ x4 ++ x5 := by
    intro α x0 x1 x2 x3 x4 x5 x6 e0 e1 e2 e3 e4 e5
    refine ⟨slice_zero_append _ _ e0.symm, slice_append_left _ _ _ e0.symm (by omega), ?_, ?_, ?_, ?_⟩
    · have := slice_append_left (x0 ++ x1) x2 (x3 ++ (x4 ++ (x5 ++ x6))) (i := pd.length + pi.length)
        (j := pd.length + pi.length + pu.length) (by simp; omega) (by simp; omega)
      simpa only [List.append_assoc] using this
    · have := slice_append_left (x0 ++ x1 ++ x2) x3 (x4 ++ (x5 ++ x6)) (i := pd.length + pi.length + pu.length)
        (j := pd.length + pi.length + pu.length + pg.length) (by simp; omega) (by simp; omega)
      simpa only [List.append_assoc] using this
    · have := slice_append_left (x0 ++ x1 ++ x2 ++ x3 ++ x4) x5 x6 (i := pd.length + pi.length + pu.length + pg.length + pf.length)
        (j := pd.length + pi.length + pu.length + pg.length + pf.length + pn.length) (by simp; omega) (by simp; omega)
      simpa only [List.append_assoc] using this
    · have := slice_append_left (x0 ++ x1 ++ x2) (x3 ++ x4 ++ x5) x6 (i := pd.length + pi.length + pu.length)
        (j := pd.length + pi.length + pu.length + pg.length + pf.length + pn.length) (by simp; omega) (by simp; omega)
      simpa only [List.append_assoc] using this
  have hv := sl (valsAt v θ pd) (valsAt v θ pi) (valsAt v θ pu) (valsAt v θ pg) (valsAt v θ pf) (valsAt v θ pn) (valsAt v θ [])
    (by simp) (by simp) (by simp) (by simp) (by simp) (by simp)
  have hb := sl (valsAt b θ pd) (valsAt b θ pi) (valsAt b θ pu) (valsAt b θ pg) (valsAt b θ pf) (valsAt b θ pn) (valsAt b θ [])
    (by simp) (by simp) (by simp) (by simp) (by simp) (by simp)
  have hvl := sl (liesAt v θ pd (derivs f θ pd dd)) (liesAt v θ pi (derivs f θ pi di)) (liesAt v θ pu (derivs f θ pu du))
    (liesAt v θ pg (derivs f θ pg dg)) (liesAt v θ pf (derivs f θ pf df)) (liesAt v θ pn (derivs f θ pn dn))
    (liesAt v θ [] (derivs f θ [] [])) (liesAt_length _ _ l1.symm) (liesAt_length _ _ l2.symm) (liesAt_length _ _ l3.symm)
    (liesAt_length _ _ l4.symm) (liesAt_length _ _ l5.symm) (liesAt_length _ _ l6.symm)
  have hbl := sl (liesAt b θ pd (derivs f θ pd dd)) (liesAt b θ pi (derivs f θ pi di)) (liesAt b θ pu (derivs f θ pu du))
    (liesAt b θ pg (derivs f θ pg dg)) (liesAt b θ pf (derivs f θ pf df)) (liesAt b θ pn (derivs f θ pn dn))
    (liesAt b θ [] (derivs f θ [] [])) (liesAt_length _ _ l1.symm) (liesAt_length _ _ l2.symm) (liesAt_length _ _ l3.symm)
    (liesAt_length _ _ l4.symm) (liesAt_length _ _ l5.symm) (liesAt_length _ _ l6.symm)
  rw [liesAt_append v θ _ _ l1.symm, liesAt_append v θ _ _ l2.symm, liesAt_append v θ _ _ l3.symm, liesAt_append v θ _ _ l4.symm,
    liesAt_append v θ _ _ l5.symm, liesAt_append v θ _ _ l6.symm]
  rw [liesAt_append b θ _ _ l1.symm, liesAt_append b θ _ _ l2.symm, liesAt_append b θ _ _ l3.symm, liesAt_append b θ _ _ l4.symm,
    liesAt_append b θ _ _ l5.symm, liesAt_append b θ _ _ l6.symm]
  simp only [valsAt_append]
  rw [hv.1, hv.2.1, hv.2.2.1, hvl.1, hb.2.2.2.1, hb.2.2.2.2.1, hb.2.2.2.2.2, hbl.2.2.2.2.2]
  simp only [derivs_append]
  rw [liesAt_append b θ (p := pg ++ pf) _ _ (by simp [l4, l5]), liesAt_append b θ _ _ l4.symm]

/-- The data of the next theorem: samples and derivatives in the same dictionary order, XI before XD. -/
def exRarS : Dict String (List ℝ) := [(XI, [-1]), (XD, [-2]), (XU, [5]), (XG, [-1]), (XF, [0]), (XNF, [1])]
/-- Derivatives belonging to `exRarS` (label by label). -/
def exRarSdot : Dict String (List ℝ) := [(XI, [-1]), (XD, [1]), (XU, [-1]), (XG, [-1]), (XF, [-1]), (XNF, [-1])]

/-- **C36, the defect in ReachAvoidRemain.** Without a controller the stored derivatives are taken in dictionary order: with XI listed
before XD the domain sample -2 is paired with the derivative of the initial sample. The pass reports success for all conditions
although the certificate increases at the domain sample (derivative 1). -/
theorem C36_rar_misattributed :
    let v : Values Unit ℝ := ⟨fun _ x => x, fun _ _ d => d⟩
    rarPass false v v none exRarS exRarSdot () = .ok ((100, 100), (100, 100)) ∧
    ∃ p d, Dict.get exRarS XD = .ok [p] ∧ Dict.get exRarSdot XD = .ok [d] ∧ v.val () p < 0 ∧ ¬ v.lie () p d ≤ 0 := by
  refine ⟨?_, -2, 1, rfl, rfl, by norm_num, by norm_num⟩
  have h1 : rwsAcc [(-1:ℝ)] [5] [-2] [-1] = .ok (100, 100) := by
    have h3 : initUnsafeAcc 0 [(-1:ℝ)] [5] = .ok 100 := by rw [C44_init_unsafe_accuracy]; norm_num
    have h4 : lieVals [(-2:ℝ)] [-1] = [-1] := by simp [lieVals]
    simp [rwsAcc, h3, h4, bind, Except.bind, pure, Except.pure, countNonzero]; norm_num
  have h2 : barrierAcc false [(-1:ℝ)] [1] [-1, 0, 1] [-1, -1, -1] = .ok (100, 100) := by
    have h3 : initUnsafeAcc 0 [(-1:ℝ)] [1] = .ok 100 := by rw [C44_init_unsafe_accuracy]; norm_num
    have h4 : beltVals false [(-1:ℝ), 0, 1] [-1, -1, -1] = [-1, -1] := by
      simp [beltVals, List.filter_cons]
    simp [barrierAcc, h3, h4, bind, Except.bind, pure, Except.pure, countNonzero]
  have e : rarPass false (⟨fun _ x => x, fun _ _ d => d⟩ : Values Unit ℝ) ⟨fun _ x => x, fun _ _ d => d⟩ none exRarS exRarSdot () = (do
      let a ← rwsAcc [(-1:ℝ)] [5] [-2] [-1]
      let c ← barrierAcc false [(-1:ℝ)] [1] [-1, 0, 1] [-1, -1, -1]
      return (a, c)) := rfl
  rw [e, h1, h2]
  rfl

/-- Non-vacuity: a dictionary in unusual order whose labels carry samples and derivatives. -/
example : Labelled (Θ := Unit) none exRarS exRarSdot XD [-2] [1] ∧ Labelled (Θ := Unit) none exRarS exRarSdot XI [-1] [-1] ∧
    Labelled (Θ := Unit) none exRarS exRarSdot XU [5] [-1] :=
  ⟨⟨rfl, fun _ => ⟨rfl, rfl⟩⟩, ⟨rfl, fun _ => ⟨rfl, rfl⟩⟩, ⟨rfl, fun _ => ⟨rfl, rfl⟩⟩⟩

example : Labelled (Θ := ℝ) (some (fun θ x => θ * x)) exRarS [] XD [-2] [] := ⟨rfl, fun h => by cases h⟩

end Fossil
