/-
C74: complete runs with the modelled training.
-/
import Verif.Trained
import Verif.Props.C68_Stopping
import Verif.Props.C73_Level

namespace Fossil
open Spec

/-! ### runs with an invariant -/

section
variable {N K P E : Type}

/-- If from every state with the invariant a pass either returns with the invariant or the state is bad, then the run returns or reaches a bad state. -/
theorem run_or_bad (cfg : LoopCfg) (hN : 0 ≤ cfg.maxIters) (c : Components N K P E) (Inv Bad : LoopState N K P E → Prop)
    (hpass : ∀ st, Inv st → Bad st ∨ ∃ b st', loopBody cfg c st = .ok (b, st') ∧ Inv st')
    (net : N) (ctrl : K) (S : Dict String (List P)) (h0 : Inv (initState c net ctrl S)) :
    (∃ out, Solves cfg c net ctrl S out ∧ (out.iters : ℤ) ≤ cfg.maxIters + 1) ∨
      ∃ k st, Steps cfg c (initState c net ctrl S) k st ∧ Inv st ∧ Bad st := by
  by_cases hbad : ∃ k st, Steps cfg c (initState c net ctrl S) k st ∧ Inv st ∧ Bad st
  · exact Or.inr hbad
  left
  have noerr : ∀ fuel (st : LoopState N K P E) k, Steps cfg c (initState c net ctrl S) k st → Inv st → ∀ e, runLoop cfg c fuel st ≠ .error e := by
    intro fuel
    induction fuel with
    | zero => intro st k _ _ e h; cases h
    | succ fuel ih =>
      intro st k hs hi e h
      rcases hpass st hi with hb | ⟨b, st', h1, h2⟩
      · exact hbad ⟨k, st, hs, hi, hb⟩
      · simp only [runLoop, h1] at h
        cases b with
        | true => cases h
        | false => exact ih st' _ (.tail hs h1) h2 e h
  rcases C28_terminates cfg hN c net ctrl S with ⟨e, h⟩ | ⟨out, -, h⟩
  · exact absurd h (noerr _ _ _ (.refl _) h0 e)
  · exact ⟨out, h, ((C28_iteration_bound cfg hN c net ctrl S).2 out h).1⟩

end

/-! ### the data -/

namespace Spec

/-- Data the training of a certificate can use: derivatives for the same labels and as many, rows of width `n`, a sample for every label training needs. -/
structure TrainData (n : ℕ) (cert : CertType) (S Sdot : Dict String (List (List ℚ))) : Prop where
  keys : Dict.keys Sdot = Dict.keys S
  rows : ∀ l p, Dict.get? S l = some p → ∀ r ∈ p, r.length = n
  dots : ∀ l p, Dict.get? S l = some p → ∃ d, Dict.get? Sdot l = some d ∧ d.length = p.length ∧ ∀ r ∈ d, r.length = n
  labels : ∀ l ∈ trainLabels cert, ∃ p, Dict.get? S l = some p ∧ p ≠ []
  lie : ∀ l ∈ Dict.keys S, hasLie l = true → l = XD

end Spec

theorem addCes_data {n : ℕ} {cert : CertType} {dyn : List ℚ → List ℚ} (hdyn : ∀ x, x.length = n → (dyn x).length = n) :
    ∀ (ces S Sdot S' Sdot' : Dict String (List (List ℚ))), TrainData n cert S Sdot → (∀ e ∈ ces, ∀ r ∈ e.2, r.length = n) →
      addCes dyn ces S Sdot = .ok (S', Sdot') → TrainData n cert S' Sdot' := by
  intro ces
  induction ces with
  | nil => intro S Sdot S' Sdot' h _ he; cases he; exact h
  | cons e rest ih =>
    obtain ⟨lab, new⟩ := e
    intro S Sdot S' Sdot' h hw he
    have hw' : ∀ e ∈ rest, ∀ r ∈ e.2, r.length = n := fun e hm => hw e (List.mem_cons_of_mem _ hm)
    unfold addCes at he
    split at he
    · exact ih _ _ _ _ h hw' he
    · split at he
      · cases he
      · rename_i old ho
        refine ih _ _ _ _ ⟨?_, ?_, ?_, ?_, ?_⟩ hw' he
        · have hm : lab ∈ Dict.keys S := Dict.get?_isSome_iff.1 (by rw [ho]; rfl)
          rw [keys_set_of_mem hm, keys_set_of_mem (h.keys ▸ hm), h.keys]
        · intro l p hp r hr
          rw [Dict.get?_set] at hp
          split at hp
          · cases hp
            rcases List.mem_append.1 hr with hr | hr
            · exact h.rows _ _ ho r hr
            · exact hw _ (List.mem_cons_self ..) r hr
          · exact h.rows l p hp r hr
        · intro l p hp
          rw [Dict.get?_set] at hp ⊢
          split at hp
          · rename_i e
            rw [if_pos e]
            cases hp
            refine ⟨_, rfl, by simp, fun r hr => ?_⟩
            obtain ⟨x, hx, rfl⟩ := List.mem_map.1 hr
            refine hdyn x ?_
            rcases List.mem_append.1 hx with hx | hx
            · exact h.rows _ _ ho x hx
            · exact hw _ (List.mem_cons_self ..) x hx
          · rename_i e
            rw [if_neg e]
            exact h.dots l p hp
        · intro l hl
          obtain ⟨p, hp, hne⟩ := h.labels l hl
          rw [Dict.get?_set]
          by_cases e : lab = l
          · rw [if_pos e]
            subst e
            rw [ho] at hp
            cases hp
            exact ⟨_, rfl, by simp [hne]⟩
          · rw [if_neg e]
            exact ⟨p, hp, hne⟩
        · have hm : lab ∈ Dict.keys S := Dict.get?_isSome_iff.1 (by rw [ho]; rfl)
          rw [keys_set_of_mem hm]
          exact h.lie

theorem initState_data {n : ℕ} {cert : CertType} {dyn : List ℚ → List ℚ} (hdyn : ∀ x, x.length = n → (dyn x).length = n) {S : Dict String (List (List ℚ))}
    (hrows : ∀ l p, Dict.get? S l = some p → ∀ r ∈ p, r.length = n) (hlab : ∀ l ∈ trainLabels cert, ∃ p, Dict.get? S l = some p ∧ p ≠ [])
    (hD : ∀ l ∈ Dict.keys S, hasLie l = true → l = XD) : TrainData n cert S (Dict.mapVals (List.map dyn) S) := by
  refine ⟨Dict.keys_mapVals .., hrows, fun l p hp => ⟨p.map dyn, by rw [Dict.get?_mapVals, hp]; rfl, by simp, fun r hr => ?_⟩, hlab, hD⟩
  obtain ⟨x, hx, rfl⟩ := List.mem_map.1 hr
  exact hdyn x (hrows l p hp x hx)

/-! ### counterexamples have the right width -/

theorem computeModel_length {R : Type} {B : Backend R} {n : ℕ} {r : R} {pt : List ℚ} (h : computeModel B n r = .ok pt) : pt.length = n := by
  have go : ∀ (is : List ℕ) (vs : List ℚ), computeModel.go B r is = .ok vs → vs.length = is.length := by
    intro is
    induction is with
    | nil => intro vs h; cases h; rfl
    | cons i is ih =>
      intro vs h
      unfold computeModel.go at h
      obtain ⟨v, -, h⟩ := except_bind_ok h
      obtain ⟨vs', h1, h⟩ := except_bind_ok h
      cases h
      simp [ih _ h1]
  have := go _ _ h
  simpa using this

theorem fillCex_width {R : Type} {B : Backend R} {n : ℕ} {noise : String → ℕ → ℕ → ℚ} : ∀ (res : Dict String R) (ces out : Dict String (List (List ℚ))),
    (∀ e ∈ ces, ∀ r ∈ e.2, r.length = n) → fillCex B n noise res ces = .ok out → ∀ e ∈ out, ∀ r ∈ e.2, r.length = n := by
  intro res
  induction res with
  | nil => intro ces out h he; cases he; exact h
  | cons q rest ih =>
    obtain ⟨label, a⟩ := q
    intro ces out h he
    unfold fillCex at he
    split at he
    · obtain ⟨pt, h1, he⟩ := except_bind_ok he
      refine ih _ _ ?_ he
      intro e hm r hr
      rcases dict_set_mem hm with h' | h'
      · exact h e h' r hr
      · rw [h'] at hr
        have hl := computeModel_length h1
        rcases List.mem_append.1 hr with hr | hr
        · obtain ⟨j, -, rfl⟩ := List.mem_map.1 hr
          simpa using hl
        · rw [List.mem_singleton.1 hr]; exact hl
    · exact ih _ _ h he

theorem verify_width {R : Type} {B : Backend R} {n : ℕ} {noise : String → ℕ → ℕ → ℚ} {o : Oracle R} {groups : List (Dict String Formula)} {r : VerifyOut}
    (h : verify B n noise o groups = .ok r) : ∀ e ∈ r.cex, ∀ row ∈ e.2, row.length = n := by
  have h0 : ∀ e ∈ ((solveGroups B o 0 [] groups).2.map (fun p => (p.1, ([] : List (List ℚ))))), ∀ row ∈ e.2, row.length = n := by
    intro e he row hr
    obtain ⟨q, -, rfl⟩ := List.mem_map.1 he
    cases hr
  unfold verify at h
  dsimp only at h
  split at h
  · cases h; exact h0
  · obtain ⟨c, h1, h⟩ := except_bind_ok h
    cases h
    exact fillCex_width _ _ _ h0 h1

/-! ### training -/

/-- After any number of steps that keep the network usable it is usable. -/
theorem afterSteps_usable {K : Type} {lib : Lib} {n : ℕ} {step : ℕ → Net × K → Net × K} (h : ∀ t θ, Usable lib n θ.1 → Usable lib n (step t θ).1) (θ : Net × K)
    (hθ : Usable lib n θ.1) : ∀ m, Usable lib n (afterSteps step m θ).1 := by
  intro m
  induction m with
  | zero => exact hθ
  | succ m ih => exact h _ _ ih

theorem widthOk_of {n : ℕ} {S : Dict String (List (List ℚ))} {L : List String} (h : ∀ l p, Dict.get? S l = some p → ∀ r ∈ p, r.length = n) :
    widthOk n S L = true := by
  unfold widthOk
  rw [List.all_eq_true]
  intro l _
  cases hp : Dict.get? S l with
  | none => rfl
  | some p =>
    simp only [List.all_eq_true, decide_eq_true_eq]
    exact h l p hp

theorem trainData_dots {n : ℕ} {cert : CertType} {S Sdot : Dict String (List (List ℚ))} (h : TrainData n cert S Sdot) :
    ∀ l p, Dict.get? Sdot l = some p → ∀ r ∈ p, r.length = n := by
  intro l p hp r hr
  have hm : l ∈ Dict.keys S := h.keys ▸ Dict.get?_isSome_iff.1 (by rw [hp]; rfl)
  obtain ⟨q, hq⟩ := Option.isSome_iff_exists.1 (Dict.get?_isSome_iff.2 hm)
  obtain ⟨d, hd, -, hw⟩ := h.dots l q hq
  rw [hp] at hd
  cases hd
  exact hw r hr

theorem trainData_labelled {n : ℕ} {cert : CertType} {S Sdot : Dict String (List (List ℚ))} (h : TrainData n cert S Sdot) {Θ : Type}
    (f : Option (Θ → List ℚ → List ℚ)) {l : String} (hl : l ∈ trainLabels cert) :
    ∃ p d, Labelled f S Sdot l p d ∧ p ≠ [] ∧ Dict.get? S l = some p ∧ Dict.get? Sdot l = some d := by
  obtain ⟨p, hp, hne⟩ := h.labels l hl
  obtain ⟨d, hd, hlen, -⟩ := h.dots l p hp
  refine ⟨p, d, ⟨?_, fun _ => ⟨?_, hlen⟩⟩, hne, hp, hd⟩
  · unfold Dict.get; rw [hp]
  · unfold Dict.get; rw [hd]

namespace Spec

/-- The certificates with one network and a modelled `learn`. -/
def SingleCert (ct : CertType) : Prop := ct ≠ .STABLESAFE ∧ ct ≠ .RAR ∧ ct ≠ .CUSTOM

end Spec

/-- The derivatives training uses: recomputed with the current controller, or the stored ones. -/
def trainDyn {K : Type} (T : Trainer K) (dynNum : K → List ℚ → List ℚ) : Option (Net × K → List ℚ → List ℚ) :=
  if T.controlled then some (fun θ => dynNum θ.2) else none

namespace Spec

/-- Training of the state's pass meets, after `m` steps, a network whose derivative is exactly 0 at every sample of the domain. -/
def MeetsZeroDerivative {K : Type} (T : Trainer K) (c : SynthCfg) (discrete : Bool) (dynNum : K → List ℚ → List ℚ)
    (st : LoopState (Net × ℚ) K (List ℚ) Term) : Prop :=
  ∃ p d m, Dict.get? st.S XD = some p ∧ Dict.get? st.Sdot XD = some d ∧
    ∀ q ∈ p.zip (derivs (trainDyn T dynNum) (afterSteps (T.step st.iters) m (st.net.1, st.ctrl)) p d),
      (trainValues K c.quad discrete).lie (afterSteps (T.step st.iters) m (st.net.1, st.ctrl)) q.1 q.2 = 0

end Spec

theorem trainedLearn_total {K : Type} (T : Trainer K) (c : SynthCfg) (discrete : Bool) (dynNum : K → List ℚ → List ℚ)
    (hct : SingleCert c.cert) (hstep : ∀ i t θ, Usable c.lib c.nVars θ.1 → Usable c.lib c.nVars (T.step i t θ).1)
    (st : LoopState (Net × ℚ) K (List ℚ) Term) (hn : Usable c.lib c.nVars st.net.1) (hd : TrainData c.nVars c.cert st.S st.Sdot) :
    (c.cert = .LYAPUNOV ∧ MeetsZeroDerivative T c discrete dynNum st) ∨
      ∃ n k, trainedLearn T c discrete dynNum st = .ok (n, k) ∧ Usable c.lib c.nVars n.1 := by
  have hin : st.net.1.inputSize = c.nVars := hn.1.input
  have hw : (widthOk st.net.1.inputSize st.S (trainLabels c.cert) && widthOk st.net.1.inputSize st.Sdot (trainLabels c.cert)) = true := by
    rw [hin, widthOk_of hd.rows, widthOk_of (trainData_dots hd)]; rfl
  have hus := afterSteps_usable (hstep st.iters) (st.net.1, st.ctrl) hn
  have hlen : st.S.length = st.Sdot.length := by
    have := congrArg List.length hd.keys
    simpa [Dict.keys] using this.symm
  obtain ⟨h1, h2, h3⟩ := hct
  unfold trainedLearn
  dsimp only
  rw [if_pos hw]
  cases hc : c.cert with
  | STABLESAFE => exact absurd hc h1
  | RAR => exact absurd hc h2
  | CUSTOM => exact absurd hc h3
  | LYAPUNOV =>
    obtain ⟨p, d, hl, hne, hp, hd'⟩ := trainData_labelled hd (trainDyn T dynNum) (l := XD) (by rw [hc]; simp [trainLabels])
    by_cases hz : ∀ m, ∃ q ∈ p.zip (derivs (trainDyn T dynNum) (afterSteps (T.step st.iters) m (st.net.1, st.ctrl)) p d),
        (trainValues K c.quad discrete).lie (afterSteps (T.step st.iters) m (st.net.1, st.ctrl)) q.1 q.2 ≠ 0
    · right
      obtain ⟨j, hj, -⟩ := C68_lyapunov c.llo (trainValues K c.quad discrete) (trainDyn T dynNum) (T.step st.iters) st.S st.Sdot (st.net.1, st.ctrl) p d hl hz
      unfold trainDyn at hj
      exact ⟨_, _, by dsimp only; rw [hj]; rfl, hus j⟩
    · left
      push Not at hz
      obtain ⟨m, hm⟩ := hz
      exact ⟨rfl, p, d, m, hp, hd', hm⟩
  | ROA =>
    right
    obtain ⟨p, d, hl, hne, -⟩ := trainData_labelled hd (trainDyn T dynNum) (l := XD) (by rw [hc]; simp [trainLabels])
    obtain ⟨pi, di, hli, hnei, -⟩ := trainData_labelled hd (trainDyn T dynNum) (l := XI) (by rw [hc]; simp [trainLabels])
    obtain ⟨j, b, hj, -⟩ := C68_roa c.llo (trainValues K c.quad discrete) trainOut (trainDyn T dynNum) (T.step st.iters) st.S st.Sdot (st.net.1, st.ctrl) p d pi
      hl hli.samples hne hnei
    unfold trainDyn at hj
    exact ⟨_, _, by dsimp only; rw [hj]; rfl, hus j⟩
  | BARRIER | BARRIERALT | RWA | RWS =>
    right
    obtain ⟨p, d, hl, hne, -⟩ := trainData_labelled hd (trainDyn T dynNum) (l := XD) (by rw [hc]; simp [trainLabels])
    obtain ⟨pi, di, hli, hnei, -⟩ := trainData_labelled hd (trainDyn T dynNum) (l := XI) (by rw [hc]; simp [trainLabels])
    obtain ⟨pu, du, hlu, hneu, -⟩ := trainData_labelled hd (trainDyn T dynNum) (l := XU) (by rw [hc]; simp [trainLabels])
    first
      | (obtain ⟨j, hj, -⟩ := C68_barrier T.symmetric (trainValues K c.quad discrete) (trainDyn T dynNum) (T.step st.iters) st.S st.Sdot (st.net.1, st.ctrl) p pi pu d di du
          hl hli hlu hlen (Or.inl hnei)
         unfold trainDyn at hj
         exact ⟨_, _, by dsimp only; rw [hj]; rfl, hus j⟩)
      | (obtain ⟨j, hj, -⟩ := C68_barrierAlt (trainValues K c.quad discrete) (trainDyn T dynNum) (T.step st.iters) st.S st.Sdot (st.net.1, st.ctrl) p pi pu d di du
          hl hli hlu hlen (Or.inl hnei) hne
         unfold trainDyn at hj
         exact ⟨_, _, by dsimp only; rw [hj]; rfl, hus j⟩)
      | (obtain ⟨j, hj, -⟩ := C68_rws (trainValues K c.quad false) (trainDyn T dynNum) (T.step st.iters) st.S st.Sdot (st.net.1, st.ctrl) p pi pu d di du
          hl hli hlu hlen (Or.inl hnei)
         unfold trainDyn at hj
         exact ⟨_, _, by dsimp only; rw [hj]; rfl, hus j⟩)
  | RSWA | RSWS =>
    right
    obtain ⟨p, d, hl, hne, -⟩ := trainData_labelled hd (trainDyn T dynNum) (l := XD) (by rw [hc]; simp [trainLabels])
    obtain ⟨pi, di, hli, hnei, -⟩ := trainData_labelled hd (trainDyn T dynNum) (l := XI) (by rw [hc]; simp [trainLabels])
    obtain ⟨pu, du, hlu, hneu, -⟩ := trainData_labelled hd (trainDyn T dynNum) (l := XU) (by rw [hc]; simp [trainLabels])
    obtain ⟨pb, db, hlb, hneb, -⟩ := trainData_labelled hd (trainDyn T dynNum) (l := XGB) (by rw [hc]; simp [trainLabels])
    obtain ⟨pg, dg, hlg, hneg, -⟩ := trainData_labelled hd (trainDyn T dynNum) (l := XG) (by rw [hc]; simp [trainLabels])
    obtain ⟨j, hj, -⟩ := C68_rsws (trainValues K c.quad false) (trainDyn T dynNum) (T.step st.iters) st.S st.Sdot (st.net.1, st.ctrl) p pi pu pb pg d di du db dg
      hl hli hlu hlb hlg hlen (Or.inl hnei) hneb
    unfold trainDyn at hj
    exact ⟨_, _, by dsimp only; rw [hj]; rfl, hus j⟩

/-! ### the whole run -/

theorem mergeTraj_width {n : ℕ} {S cex out : Dict String (List (List ℚ))} {traj : List (List ℚ)} (hc : ∀ e ∈ cex, ∀ r ∈ e.2, r.length = n)
    (ht : ∀ r ∈ traj, r.length = n) (h : mergeTraj S cex traj = .ok out) : ∀ e ∈ out, ∀ r ∈ e.2, r.length = n := by
  unfold mergeTraj at h
  split at h
  · cases h; exact hc
  · split at h
    · cases h
    · rename_i l _
      split at h
      · cases h
      · rename_i rows hr
        cases h
        intro e he r hr'
        rcases dict_set_mem he with h' | h'
        · exact hc e h' r hr'
        · rw [h'] at hr'
          rcases List.mem_append.1 hr' with hr' | hr'
          · exact hc _ (Dict.get?_eq_some_mem hr) r hr'
          · exact ht r hr'

theorem queryLabels_trained {cert : CertType} (h : SingleCert cert) : ∀ l ∈ queryLabels cert, l ∈ trainLabels cert := by
  obtain ⟨h1, h2, h3⟩ := h
  cases cert with
  | STABLESAFE => exact absurd rfl h1
  | RAR => exact absurd rfl h2
  | CUSTOM => exact absurd rfl h3
  | _ => intro l hl; simp [queryLabels, trainLabels] at hl ⊢; tauto

theorem single_cert_loop {c : SynthCfg} (h : SingleCert c.cert) : c.loop.double = false := by
  obtain ⟨h1, h2, -⟩ := h
  simp [LoopCfg.double, SynthCfg.loop, h1, h2]

/-- The environment does its part: dynamics of the right dimension, "sat" answers with a value for every variable, a trajectory search that returns rows of the
right width and nothing without a counterexample of the derivative condition. -/
structure FairWorld {R K N : Type} (w : World R K N) (n : ℕ) : Prop where
  dyn : ∀ k, (w.dynamics k).length = n
  num : ∀ k x, x.length = n → (w.dynNum k x).length = n
  val : ∀ i k φ, w.backend.isSat (w.oracle i k φ) = true → ∀ v < n, ∃ q, w.backend.value (w.oracle i k φ) v = .ok q
  cons : ∀ i m k cex, ∃ traj, w.consolidate i m k cex = .ok traj ∧ ((∀ e ∈ cex, hasLie e.1 = true → e.2 = []) → traj = []) ∧
    ∀ r ∈ traj, r.length = n

/-- The state invariant of a run: the network can be translated, the data can be trained on. -/
def RunReady (c : SynthCfg) {K : Type} (st : LoopState (Net × ℚ) K (List ℚ) Term) : Prop :=
  Usable c.lib c.nVars st.net.1 ∧ TrainData c.nVars c.cert st.S st.Sdot

theorem pass_ready {R K : Type} (w : World R K (Net × ℚ)) (c : SynthCfg) (discrete : Bool) (T : Trainer K) (g g' : Rng)
    (hlib : c.lib = .z3 ∨ c.lib = .dreal) (hct : SingleCert c.cert)
    (hsets : UsableSets c.nVars c.domains) (hlab : ∀ l ∈ setsOf c.cert, ∃ S, Dict.get? c.domains l = some S)
    (hXD : c.cert = .LYAPUNOV → ∀ S, Dict.get? c.domains XD = some S → BorderDrawn S ∧ AllCoords c.nVars S ∧ unionDepth S ≤ 8)
    (hrnd : discrete = true → c.rounding ≠ 0) (hw : FairWorld w c.nVars)
    (hstay : c.cert = .RSWS → ∀ i V Vdot, ∃ k β, BetaRun (stayCheckFor w.backend (w.stayOracle i) c V Vdot) betaInit k β)
    (hstep : ∀ i t θ, Usable c.lib c.nVars θ.1 → Usable c.lib c.nVars (T.step i t θ).1)
    (st : LoopState (Net × ℚ) K (List ℚ) Term) (hr : RunReady c st) :
    (c.cert = .LYAPUNOV ∧ MeetsZeroDerivative T c discrete w.dynNum st) ∨
      ∃ b st', loopBody c.loop (singleComponents (w.withEstimate g g' c) c discrete (trainedLearn T c discrete w.dynNum)) st = .ok (b, st') ∧ RunReady c st' := by
  rcases trainedLearn_total T c discrete w.dynNum hct hstep st hr.1 hr.2 with h | ⟨n, k, h1, hn⟩
  · exact Or.inl h
  right
  set C := singleComponents (w.withEstimate g g' c) c discrete (trainedLearn T c discrete w.dynNum) with hC
  have e1 : C.learn st = .ok (n, k) := h1
  obtain ⟨V, Vdot, e2⟩ : ∃ V Vdot, C.translate n k = .ok (V, Vdot) := by
    show ∃ V Vdot, (if discrete then translateDT c.lib c.rounding c.quad n.1 (vars c.nVars) (w.dynamics k)
      else translateCT c.lib c.rounding none c.quad n.1 (vars c.nVars) (w.dynamics k)) = .ok (V, Vdot)
    cases hd : discrete with
    | true => exact (C70_translates_iff_dt c.lib c.rounding c.quad c.nVars n.1 hn.1 _ (hw.dyn k)).1 (hrnd hd) hn.2
    | false => exact (C70_translates_iff c.lib c.rounding none c.quad c.nVars n.1 hn.1 _ (hw.dyn k)).1 hn.2
  obtain ⟨f, cex, e3, hlabs, hwid⟩ : ∃ f cex, C.verify st.iters n V Vdot = .ok (f, cex) ∧ (∀ l ∈ Dict.keys cex, l ∈ queryLabels c.cert) ∧
      ∀ e ∈ cex, ∀ r ∈ e.2, r.length = c.nVars := by
    obtain ⟨d, hi, hsc⟩ := single_constraints_total c.lib c.nVars c.cert c.llo n.2 c.domains hlib hct hsets hlab
    obtain ⟨gr, hg⟩ := hsc V Vdot
    obtain ⟨r, hr'⟩ := C70_verify_total w.backend c.nVars (w.noise st.iters) (w.oracle st.iters) gr (hw.val st.iters)
    refine ⟨r.found, r.cex, ?_, fun l hl => ?_, verify_width hr'⟩
    · show Except.bind _ _ = _
      have hr'' : verify (w.withEstimate g g' c).backend c.nVars ((w.withEstimate g g' c).noise st.iters) ((w.withEstimate g g' c).oracle st.iters) gr = .ok r := hr'
      simp only [hi, hg, hr'', Bind.bind, Except.bind, pure, Except.pure]
    · obtain ⟨g'', hg'', hl'⟩ := verify_labels hr' l hl
      exact singleConstraints_labels hg g'' hg'' l hl'
  obtain ⟨traj, e4, ht1, ht2⟩ := hw.cons st.iters n k cex
  have e4' : C.consolidate st.iters n k cex = .ok traj := e4
  have hkeys : ∀ l ∈ Dict.keys cex, l ∈ Dict.keys st.S := fun l hl => by
    obtain ⟨p, hp, -⟩ := hr.2.labels l (queryLabels_trained hct l (hlabs l hl))
    exact Dict.get?_isSome_iff.1 (by rw [hp]; rfl)
  have hdec : ∃ b st2, loopDecide c.loop C V Vdot (st.after n k V Vdot f cex traj) = .ok (b, st2) ∧ RunReady c st2 := by
    have hready : RunReady c (st.after n k V Vdot f cex traj) := ⟨hn, hr.2⟩
    unfold loopDecide
    split
    · unfold processCertificate
      have he : (if c.loop.cert = .LYAPUNOV ∨ c.loop.cert = .ROA then C.estimateBeta (st.after n k V Vdot f cex traj).net else .ok ()) = .ok () := by
        split
        · rename_i h
          show (estimateBetaOf g g' c.cert c.domains n).map (fun _ => ()) = .ok ()
          rcases h with h | h
          · change c.cert = .LYAPUNOV at h
            obtain ⟨S, hS⟩ := hlab XD (by rw [h]; simp [setsOf])
            obtain ⟨h1, h2, h3⟩ := hXD h S hS
            obtain ⟨v, _, hv, -⟩ := C73_level_value c.nVars n.1 hn.1 c.domains S hS (hsets _ (Dict.get?_eq_some_mem hS)).1 h1 h2 h3 g g'
            rw [h]
            show (lyapEstimateBeta g g' c.domains n.1).map (fun _ => ()) = .ok ()
            rw [hv]
            rfl
          · change c.cert = .ROA at h
            rw [h]
            rfl
        · rfl
      simp only [he]
      split
      · rename_i hR
        obtain ⟨kk, β, hk⟩ := hstay hR (st.after n k V Vdot f cex traj).iters V Vdot
        have hb : ∃ b, C.betaSearch (st.after n k V Vdot f cex traj).iters V Vdot = .ok b := by
          show ∃ b, betaSearchFn (stayCheckFor w.backend (w.stayOracle _) c V Vdot) = .ok b
          unfold betaSearchFn
          split
          · exact ⟨_, rfl⟩
          · split
            · exact ⟨_, rfl⟩
            · rename_i h1 h2
              cases β with
              | some β => exact absurd ⟨kk, β, hk⟩ h1
              | none => exact absurd ⟨kk, hk⟩ h2
        obtain ⟨b, hb⟩ := hb
        simp only [hb]
        cases b with
        | true => exact ⟨_, _, rfl, hready⟩
        | false => exact ⟨_, _, rfl, hready⟩
      · exact ⟨_, _, rfl, hready⟩
    · split
      · exact ⟨_, _, rfl, hready⟩
      · split
        · exact ⟨_, _, rfl, hready⟩
        · obtain ⟨st', e, e1, e2⟩ := processCex_total (double := c.loop.double) (c := C) (st := st.after n k V Vdot f cex traj)
            hkeys hr.2.lie (by
              intro _ hne
              by_contra hx
              refine hne (ht1 fun e he hlie => ?_)
              have hm : e.1 ∈ Dict.keys cex := List.mem_map_of_mem he
              have := hr.2.lie _ (hkeys _ hm) hlie
              exact absurd (this ▸ hm) hx)
          rw [e]
          refine ⟨_, _, rfl, by show Usable c.lib c.nVars st'.net.1; rw [e1]; exact hn, ?_⟩
          unfold processCex at e
          rw [single_cert_loop hct] at e
          simp only [Bool.false_eq_true, if_false] at e
          cases hm : mergeTraj st.S cex traj with
          | error x => rw [show (st.after n k V Vdot f cex traj).S = st.S from rfl, show (st.after n k V Vdot f cex traj).cex = cex from rfl,
              show (st.after n k V Vdot f cex traj).traj = traj from rfl, hm] at e; cases e
          | ok cex' =>
            rw [show (st.after n k V Vdot f cex traj).S = st.S from rfl, show (st.after n k V Vdot f cex traj).cex = cex from rfl,
              show (st.after n k V Vdot f cex traj).traj = traj from rfl, hm] at e
            dsimp only at e
            cases ha : addCes (C.dyn (st.after n k V Vdot f cex traj).ctrl) cex' st.S (st.after n k V Vdot f cex traj).Sdot with
            | error x => rw [ha] at e; cases e
            | ok SS =>
              rw [ha] at e
              cases e
              exact addCes_data (fun x hx => hw.num _ x hx) cex' st.S st.Sdot _ _ hr.2 (mergeTraj_width hwid ht2 hm) ha
  obtain ⟨b, st2, h5, h6⟩ := hdec
  exact ⟨b, st2.tick, by simp only [loopBody, e1, e2, e3, e4', h5, Bind.bind, Except.bind, pure, Except.pure], h6⟩

/-- **C74 (complete runs never raise).** With z3 or dReal, for every certificate with one network: if the sets of the certificate are given and usable, the
initial network fits together and has supported activations, optimiser steps keep it so, there is a sample of the right width for every label training needs,
and the environment does its part, then the run of the whole loop with training returns a result within `CEGIS_MAX_ITERS + 1` passes, whatever the solver
answers and the optimiser does — except that a Lyapunov run can meet, in some training step, a network whose derivative is exactly 0 at all samples. -/
theorem C74_run_total {R K : Type} (w : World R K (Net × ℚ)) (c : SynthCfg) (discrete : Bool) (T : Trainer K) (g g' : Rng)
    (hlib : c.lib = .z3 ∨ c.lib = .dreal) (hct : SingleCert c.cert) (hN : 0 ≤ c.maxIters)
    (hsets : UsableSets c.nVars c.domains) (hlab : ∀ l ∈ setsOf c.cert, ∃ S, Dict.get? c.domains l = some S)
    (hXD : c.cert = .LYAPUNOV → ∀ S, Dict.get? c.domains XD = some S → BorderDrawn S ∧ AllCoords c.nVars S ∧ unionDepth S ≤ 8)
    (hrnd : discrete = true → c.rounding ≠ 0) (hw : FairWorld w c.nVars)
    (hstay : c.cert = .RSWS → ∀ i V Vdot, ∃ k β, BetaRun (stayCheckFor w.backend (w.stayOracle i) c V Vdot) betaInit k β)
    (hstep : ∀ i t θ, Usable c.lib c.nVars θ.1 → Usable c.lib c.nVars (T.step i t θ).1)
    (net : Net × ℚ) (ctrl : K) (S : Dict String (List (List ℚ))) (hnet : Usable c.lib c.nVars net.1)
    (hrows : ∀ l p, Dict.get? S l = some p → ∀ r ∈ p, r.length = c.nVars) (hdata : ∀ l ∈ trainLabels c.cert, ∃ p, Dict.get? S l = some p ∧ p ≠ [])
    (hD : ∀ l ∈ Dict.keys S, hasLie l = true → l = XD) :
    (∃ out, Solves c.loop (singleComponents (w.withEstimate g g' c) c discrete (trainedLearn T c discrete w.dynNum)) net ctrl S out ∧
      (out.iters : ℤ) ≤ c.maxIters + 1) ∨
    (c.cert = .LYAPUNOV ∧ ∃ k st, Steps c.loop (singleComponents (w.withEstimate g g' c) c discrete (trainedLearn T c discrete w.dynNum))
      (initState (singleComponents (w.withEstimate g g' c) c discrete (trainedLearn T c discrete w.dynNum)) net ctrl S) k st ∧
      MeetsZeroDerivative T c discrete w.dynNum st) := by
  rcases run_or_bad c.loop hN (singleComponents (w.withEstimate g g' c) c discrete (trainedLearn T c discrete w.dynNum)) (RunReady c)
    (fun st => c.cert = .LYAPUNOV ∧ MeetsZeroDerivative T c discrete w.dynNum st)
    (pass_ready w c discrete T g g' hlib hct hsets hlab hXD hrnd hw hstay hstep) net ctrl S
    ⟨hnet, initState_data (fun x hx => hw.num _ x hx) hrows hdata hD⟩ with h | ⟨k, st, h1, -, h2, h3⟩
  · exact Or.inl h
  · exact Or.inr ⟨h2, k, st, h1, h3⟩


/-! ### the optimiser keeps networks usable -/

namespace Spec

/-- A layer with the dimensions of another. -/
def SameDims (l l' : Layer) : Prop := l'.weight.map List.length = l.weight.map List.length ∧ ∀ b, l.bias = some b → ∃ b', l'.bias = some b' ∧ b'.length = b.length

/-- An optimiser update: new parameters have the shape of the old ones. -/
def KeepsDims (upd : List Layer → List Layer) : Prop := ∀ ls, List.Forall₂ SameDims ls (upd ls)

end Spec

theorem update_dims {l l' : Layer} (h : SameDims l l') :
    (l.update l').weight.map List.length = l.weight.map List.length ∧ (∀ b, (l.update l').bias = some b → ∃ b', l.bias = some b' ∧ b.length = b'.length) := by
  refine ⟨h.1, fun b hb => ?_⟩
  unfold Layer.update at hb
  cases hl : l.bias with
  | none => simp [hl] at hb
  | some b0 =>
    obtain ⟨b', h1, h2⟩ := h.2 b0 hl
    simp [hl, h1] at hb
    exact ⟨b0, rfl, by rw [← hb, h2]⟩

/-- Layers of the same dimensions fit as the old ones do. -/
theorem shapedFrom_dims : ∀ {ls ls' : List Layer} {m : ℕ},
    List.Forall₂ (fun l l' : Layer => l'.weight.map List.length = l.weight.map List.length ∧ ∀ b, l'.bias = some b → ∃ b', l.bias = some b' ∧ b.length = b'.length) ls ls' →
    shapedFrom m ls → shapedFrom m ls' := by
  intro ls ls' m h
  induction h generalizing m with
  | nil => exact id
  | @cons l l' ls ls' hl _ ih =>
    rintro ⟨h1, h2, h3⟩
    have hlen : l'.weight.length = l.weight.length := by simpa using congrArg List.length hl.1
    refine ⟨fun r hr => ?_, fun b hb => ?_, ?_⟩
    · have : r.length ∈ l'.weight.map List.length := List.mem_map_of_mem hr
      rw [hl.1] at this
      obtain ⟨r', hr', e⟩ := List.mem_map.1 this
      rw [← e]; exact h1 r' hr'
    · obtain ⟨b', hb', e⟩ := hl.2 b hb
      rw [e, hlen]; exact h2 b' hb'
    · rw [hlen]; exact ih h3

theorem usable_dims {lib : Lib} {n : ℕ} {net : Net} {ls : List Layer} (h : Usable lib n net)
    (hd : List.Forall₂ (fun l l' : Layer => l'.weight.map List.length = l.weight.map List.length ∧ ∀ b, l'.bias = some b → ∃ b', l.bias = some b' ∧ b.length = b'.length) net.layers ls) :
    Usable lib n { net with layers := ls } := by
  obtain ⟨⟨h1, h2, h3, last, h4, h5⟩, h6⟩ := h
  have hlen : net.layers.length = ls.length := hd.length_eq
  refine ⟨⟨h1, shapedFrom_dims hd h2, by simpa [← hlen] using h3, ?_⟩, ?_⟩
  · rcases List.eq_nil_or_concat' ls with e | ⟨as, a, e⟩
    · subst e
      have : net.layers = [] := by simpa using hlen
      rw [this] at h4; cases h4
    · refine ⟨a, by simp [e], ?_⟩
      rcases List.eq_nil_or_concat' net.layers with e' | ⟨bs, b, e'⟩
      · rw [e'] at h4; cases h4
      · have hb : b = last := by simpa [e'] using h4
        have hlen' : bs.length = as.length := by rw [e, e'] at hlen; simpa using hlen
        rw [e, e', List.forall₂_iff_get] at hd
        have := (hd.2 bs.length (by simp) (by simp [hlen'])).1
        simp only [List.get_eq_getElem, List.getElem_concat_length, hlen'] at this
        have := congrArg List.length this
        simp only [List.length_map] at this
        rw [this, hb]; exact h5
  · intro a ha
    exact h6 a (by simpa [usedActs, hlen] using ha)

theorem optimStep_usable {lib : Lib} {n : ℕ} {reg : Bool} {upd : List Layer → List Layer} (hu : KeepsDims upd) {net : Net} (h : Usable lib n net) :
    Usable lib n (optimStep reg upd net) := by
  refine usable_dims h ?_
  have key : ∀ {ls ls' : List Layer}, List.Forall₂ SameDims ls ls' → List.Forall₂ (fun l l' : Layer => l'.weight.map List.length = l.weight.map List.length ∧ ∀ b, l'.bias = some b → ∃ b', l.bias = some b' ∧ b.length = b'.length) ls
      (List.zipWith Layer.update ls ls') := by
    intro ls ls' h
    induction h with
    | nil => exact .nil
    | cons h1 _ ih => exact .cons (update_dims h1) ih
  cases reg with
  | true => exact key (hu net.layers)
  | false =>
    have key' : ∀ {ls ls' : List Layer}, List.Forall₂ SameDims ls ls' → List.Forall₂ (fun l l' : Layer => l'.weight.map List.length = l.weight.map List.length ∧ ∀ b, l'.bias = some b → ∃ b', l.bias = some b' ∧ b.length = b'.length) ls
        (List.zipWith Layer.update ls.dropLast ls' ++ ls.getLast?.toList) := by
      intro ls ls' h
      induction h with
      | nil => exact .nil
      | @cons l l' ls ls' h1 h2 ih =>
        cases ls with
        | nil => exact .cons ⟨rfl, fun b hb => ⟨b, hb, rfl⟩⟩ .nil
        | cons x xs =>
          rw [List.dropLast_cons_of_ne_nil (by simp), List.getLast?_cons_of_ne_nil (by simp)]
          exact .cons (update_dims h1) ih
    exact key' (hu net.layers)

theorem makeFinalPositive_dims : ∀ ls : List Layer, List.Forall₂ (fun l l' : Layer => l'.weight.map List.length = l.weight.map List.length ∧
    ∀ b, l'.bias = some b → ∃ b', l.bias = some b' ∧ b.length = b'.length) ls (makeFinalPositive ls)
  | [] => .nil
  | [l] => .cons ⟨by simp [Function.comp_def], fun b hb => ⟨b, hb, rfl⟩⟩ .nil
  | l :: l' :: ls => .cons ⟨rfl, fun b hb => ⟨b, hb, rfl⟩⟩ (makeFinalPositive_dims (l' :: ls))

/-- **C74 (optimiser steps).** An optimiser step on the registered parameters, with or without the projection of the output layer, keeps a network usable. -/
theorem C74_step_usable {lib : Lib} {n : ℕ} {llo ta : Bool} {upd : ℕ → List Layer → List Layer} (hu : ∀ t, KeepsDims (upd t)) (t : ℕ) {net : Net}
    (h : Usable lib n net) : Usable lib n (lyapNetStep llo ta upd t net) := by
  have h1 := optimStep_usable (reg := !(llo && !ta)) (hu t) h
  unfold lyapNetStep
  cases ta with
  | false => exact h1
  | true => exact usable_dims h1 (makeFinalPositive_dims _)


/-! ### earlier counterexamples -/

namespace Spec

/-- In the pass from state `st` the verifier returned the point `x` under the label `l`. -/
def Refuted {N K P E : Type} (C : Components N K P E) (st : LoopState N K P E) (l : String) (x : P) : Prop :=
  ∃ net ctrl V Vdot cex rows, C.learn st = .ok (net, ctrl) ∧ C.translate net ctrl = .ok (V, Vdot) ∧ C.verify st.iters net V Vdot = .ok (false, cex) ∧
    Dict.get? cex l = some rows ∧ x ∈ rows

end Spec

theorem single_cex_nodup {R K : Type} {w : World R K (Net × ℚ)} {c : SynthCfg} {discrete : Bool} {learn} :
    ∀ i n V Vdot f cex, (singleComponents w c discrete learn).verify i n V Vdot = .ok (f, cex) → cex.keys.Nodup := by
  intro i n V Vdot f cex h
  obtain ⟨d, hd, hv⟩ := except_bind_ok h
  obtain ⟨g, hg, hv⟩ := except_bind_ok hv
  obtain ⟨⟨of, oc⟩, ho, hv⟩ := except_bind_ok hv
  cases hv
  rw [verify_keys ho]
  exact solveGroups_keys_nodup _ _ _ _ _ (by simp [Dict.keys])

section
variable {R K : Type} {w : World R K (Net × ℚ)} {c : SynthCfg} {discrete : Bool} {T : Trainer K}

/-- A counterexample is among the samples of its label in every later state that has such samples. -/
theorem refuted_in_data {learn} {st st1 st2 : LoopState (Net × ℚ) K (List ℚ) Term} {k : ℕ} {l : String} {x : List ℚ} {p : List (List ℚ)}
    (h2 : loopBody c.loop (singleComponents w c discrete learn) st = .ok (false, st1)) (h3 : Steps c.loop (singleComponents w c discrete learn) st1 k st2)
    (hx : Refuted (singleComponents w c discrete learn) st l x) (hp : Dict.get? st2.S l = some p) : x ∈ p := by
  obtain ⟨net, ctrl, V, Vdot, cex, rows, e1, e2, e3, e4, e5⟩ := hx
  have hs : Steps c.loop (singleComponents w c discrete learn) st (1 + k) st2 := by
    have : ∀ {k st2}, Steps c.loop (singleComponents w c discrete learn) st1 k st2 → Steps c.loop (singleComponents w c discrete learn) st (1 + k) st2 := by
      intro k st2 h
      induction h with
      | refl => exact .tail (.refl _) h2
      | tail _ hb ih => exact .tail ih hb
    exact this h3
  obtain ⟨data, hd, hx⟩ := C29_counterexamples_kept c.loop _ single_cex_nodup st st1 st2 k h2 h3 net ctrl e1 V Vdot e2 cex e3 l rows e4 x e5 (by
    intro hn
    rw [(C29_data_prefix c.loop _ single_cex_nodup st st2 _ hs l).2 hn] at hp
    cases hp)
  rw [hp] at hd
  cases hd
  exact hx

/-- What `trainedLearn` returns is some number of optimiser steps away. -/
theorem trained_steps {st : LoopState (Net × ℚ) K (List ℚ) Term} {n k} (h : trainedLearn T c discrete w.dynNum st = .ok (n, k)) :
    widthOk st.net.1.inputSize st.S (trainLabels c.cert) = true := by
  unfold trainedLearn at h
  dsimp only at h
  split at h
  · rename_i hw
    simp only [Bool.and_eq_true] at hw
    exact hw.1
  · cases h

/-- The derivatives training uses at a sample of a label, as pairs. -/
theorem pair_of_sample {θ : Net × K} {p d : List (List ℚ)} {x : List ℚ} (hx : x ∈ p) (hd : T.controlled = false → d = p.map (w.dynNum θ.2)) :
    (x, w.dynNum θ.2 x) ∈ p.zip (derivs (trainDyn T w.dynNum) θ p d) := by
  have e : derivs (trainDyn T w.dynNum) θ p d = p.map (w.dynNum θ.2) := by
    unfold trainDyn derivs
    cases hc : T.controlled with
    | true => simp
    | false => simpa using hd hc
  rw [e, List.mem_iff_getElem]
  obtain ⟨i, hi, rfl⟩ := List.mem_iff_getElem.1 hx
  exact ⟨i, by simpa using hi, by simp⟩

theorem aligned_labelled (hdyn : T.controlled = false → ∀ k k', w.dynNum k = w.dynNum k') {net ctrl S k st}
    (hs : Steps c.loop (singleComponents w c discrete (trainedLearn T c discrete w.dynNum))
      (initState (singleComponents w c discrete (trainedLearn T c discrete w.dynNum)) net ctrl S) k st) {l p} (hp : Dict.get? st.S l = some p) :
    ∃ d, Labelled (trainDyn T w.dynNum) st.S st.Sdot l p d ∧ ∀ k', T.controlled = false → d = p.map (w.dynNum k') := by
  have hg : Dict.get st.S l = .ok p := by unfold Dict.get; rw [hp]
  cases hc : T.controlled with
  | true => exact ⟨[], ⟨hg, fun h => by simp [trainDyn, hc] at h⟩, fun _ h => by cases h⟩
  | false =>
    have ha := C29_aligned_partial c.loop _ single_cex_nodup (w.dynNum ctrl) (fun k => hdyn hc k ctrl) net ctrl S st k hs l
    rw [hp] at ha
    refine ⟨p.map (w.dynNum ctrl), ⟨hg, fun _ => ⟨?_, by simp⟩⟩, fun k' _ => by rw [hdyn hc k' ctrl]⟩
    unfold Dict.get; rw [ha]; rfl


theorem val_certValue {n : ℕ} {net : Net} (hs : Shaped n net) (quad discrete : Bool) (k : K) {x : List ℚ} {p : Pt n} (hp : coordList p = realRow x) :
    (trainValues K quad discrete).val (net, k) x = certValue (-1) (quad && !discrete) net p := by
  have hne := shaped_ne hs
  obtain ⟨last, r, nn, -, -, hf, -⟩ := getRowCT_spec hs quad (coordList p) (coordList p) (by simp [coordList]) (by simp [coordList])
  rw [certValue_neg hne (quad && !discrete) p hf]
  show (match net.forward (realRow x) with
    | .ok y => if quad && !discrete then y * circleOf (realRow x) else y
    | .error _ => 0) = _
  rw [← hp, hf]
  dsimp only
  rw [circleOf_coordList]
  split <;> simp

theorem steps_usable {net ctrl S j st} (hstep : ∀ i t θ, Usable c.lib c.nVars θ.1 → Usable c.lib c.nVars (T.step i t θ).1) (hnet : Usable c.lib c.nVars net.1)
    (hlearned : ∀ st n k, trainedLearn T c discrete w.dynNum st = .ok (n, k) → ∃ m, (n.1, k) = afterSteps (T.step st.iters) m (st.net.1, st.ctrl))
    (hs : Steps c.loop (singleComponents w c discrete (trainedLearn T c discrete w.dynNum))
      (initState (singleComponents w c discrete (trainedLearn T c discrete w.dynNum)) net ctrl S) j st) : Usable c.lib c.nVars st.net.1 := by
  generalize hi : initState (singleComponents w c discrete (trainedLearn T c discrete w.dynNum)) net ctrl S = s0 at hs
  induction hs with
  | refl => subst hi; exact hnet
  | @tail k0 st' st'' _ hb ih =>
    obtain ⟨k, hk⟩ := loopBody_net hb
    obtain ⟨m, hm⟩ := hlearned _ _ _ hk
    have := afterSteps_usable (hstep st'.iters) (st'.net.1, st'.ctrl) ih m
    rw [← hm] at this
    exact this

/-- Training returns the network and the controller after some number of optimiser steps. -/
theorem trained_after (st : LoopState (Net × ℚ) K (List ℚ) Term) (n : Net × ℚ) (k : K) (h : trainedLearn T c discrete w.dynNum st = .ok (n, k)) :
    ∃ m, (n.1, k) = afterSteps (T.step st.iters) m (st.net.1, st.ctrl) := by
  have loop : ∀ {σ : Type} {check : ℕ → σ → Net × K → Except Err (Bool × σ)} {s θ' j},
      trainLoop check (T.step st.iters) learnLoops 0 s (st.net.1, st.ctrl) 0 = .ok (θ', j) → θ' = afterSteps (T.step st.iters) j (st.net.1, st.ctrl) := by
    intro σ check s θ' j h
    have := trainLoop_spec check (T.step st.iters) learnLoops 0 s (st.net.1, st.ctrl) 0 θ' j h
    obtain ⟨j', h1, h2, h3, -⟩ := this
    rw [h3, stepsFrom_zero_eq, h2, Nat.zero_add]
  unfold trainedLearn at h
  dsimp only at h
  split at h
  swap; · cases h
  have fin : ∀ {r : Except Err ((Net × K) × ℕ)} {q : ℚ}, (∀ θ' j, r = .ok (θ', j) → θ' = afterSteps (T.step st.iters) j (st.net.1, st.ctrl)) →
      r.map (fun r => ((r.1.1, q), r.1.2)) = .ok (n, k) → ∃ m, (n.1, k) = afterSteps (T.step st.iters) m (st.net.1, st.ctrl) := by
    intro r q hr h
    cases hr' : r with
    | error e => rw [hr'] at h; cases h
    | ok v =>
      rw [hr'] at h
      cases h
      exact ⟨v.2, hr v.1 v.2 hr'⟩
  split at h
  · exact fin (fun θ' j hr => loop hr) h
  · rename_i hc
    cases hr : roaLearn c.llo (trainValues K c.quad discrete) trainOut (if T.controlled = true then some fun θ => w.dynNum θ.2 else none) (T.step st.iters) st.S
        st.Sdot (st.net.1, st.ctrl) with
    | error e => rw [hr] at h; cases h
    | ok v =>
      rw [hr] at h
      cases h
      obtain ⟨⟨θ', j⟩, h1, h2⟩ := except_bind_ok hr
      obtain ⟨si, -, h2⟩ := except_bind_ok h2
      obtain ⟨b, -, h2⟩ := except_bind_ok h2
      cases h2
      exact ⟨j, loop h1⟩
  all_goals first
    | (refine fin (fun θ' j hr => ?_) h
       first
         | (unfold barrierLearn at hr
            split at hr
            · exact loop hr
            · cases hr)
         | (unfold rswsLearn at hr
            split at hr
            · exact loop hr
            · cases hr))
    | cases h

/-- **C74 (progress, Lyapunov and ROA).** In every complete run: a training call that ends before its 1000th step returns a function that meets its
conditions at every counterexample found in any earlier pass — the value is at least 0 (unless this is by construction) and the derivative (in discrete time: the
difference) computed with the returned controller is at most 0. So a point can be a counterexample twice only on the edge of the strict conditions (or because
weights were rounded). The derivatives stored when no controller is trained must not depend on one. -/
theorem C74_progress_lyapunov (hct : c.cert = .LYAPUNOV ∨ c.cert = .ROA) (hdyn : T.controlled = false → ∀ k k', w.dynNum k = w.dynNum k')
    (hstep : ∀ i t θ, Usable c.lib c.nVars θ.1 → Usable c.lib c.nVars (T.step i t θ).1)
    (net : Net × ℚ) (ctrl : K) (S : Dict String (List (List ℚ))) (hnet : Usable c.lib c.nVars net.1) (j k : ℕ) (st st1 st2)
    (h1 : Steps c.loop (singleComponents w c discrete (trainedLearn T c discrete w.dynNum))
      (initState (singleComponents w c discrete (trainedLearn T c discrete w.dynNum)) net ctrl S) j st)
    (h2 : loopBody c.loop (singleComponents w c discrete (trainedLearn T c discrete w.dynNum)) st = .ok (false, st1))
    (h3 : Steps c.loop (singleComponents w c discrete (trainedLearn T c discrete w.dynNum)) st1 k st2)
    (x : List ℚ) (hx : Refuted (singleComponents w c discrete (trainedLearn T c discrete w.dynNum)) st XD x)
    (n' : Net × ℚ) (k' : K) (h4 : trainedLearn T c discrete w.dynNum st2 = .ok (n', k')) :
    ∃ m, 1 ≤ m ∧ m ≤ 1000 ∧ (n'.1, k') = afterSteps (T.step st2.iters) m (st2.net.1, st2.ctrl) ∧
      (m < 1000 → (c.llo = false → ∀ p : Pt c.nVars, coordList p = realRow x → 0 ≤ certValue (-1) (c.quad && !discrete) n'.1 p) ∧
        (discrete = false → ∀ V L r, getRowCT n'.1 c.quad (realRow x) (realRow (w.dynNum k' x)) = .ok (V, L, r) → L ≤ 0) ∧
        (discrete = true → ∀ V L r, getRowDT n'.1 (realRow x) (realRow (w.dynNum k' x)) = .ok (V, L, r) → L ≤ 0)) := by
  have hsall : Steps c.loop (singleComponents w c discrete (trainedLearn T c discrete w.dynNum))
      (initState (singleComponents w c discrete (trainedLearn T c discrete w.dynNum)) net ctrl S) (j + 1 + k) st2 := by
    clear hx h4
    induction h3 with
    | refl => exact .tail h1 h2
    | tail _ hb ih => exact .tail ih hb
  have hus2 := steps_usable (w := w) (discrete := discrete) hstep hnet trained_after hsall
  obtain ⟨m0, hm0⟩ := trained_after (w := w) st2 n' k' h4
  have hn' : Usable c.lib c.nVars n'.1 := by
    have := afterSteps_usable (hstep st2.iters) (st2.net.1, st2.ctrl) hus2 m0
    rw [← hm0] at this
    exact this
  -- the conclusion from the facts about the samples
  have concl : ∀ (p d : List (List ℚ)), Dict.get? st2.S XD = some p → (T.controlled = false → d = p.map (w.dynNum k')) →
      (∀ q ∈ p.zip (derivs (trainDyn T w.dynNum) (n'.1, k') p d), (trainValues K c.quad discrete).lie (n'.1, k') q.1 q.2 ≤ 0) ∧
        (c.llo = false → ∀ y ∈ p, 0 ≤ (trainValues K c.quad discrete).val (n'.1, k') y) →
      (c.llo = false → ∀ p : Pt c.nVars, coordList p = realRow x → 0 ≤ certValue (-1) (c.quad && !discrete) n'.1 p) ∧
        (discrete = false → ∀ V L r, getRowCT n'.1 c.quad (realRow x) (realRow (w.dynNum k' x)) = .ok (V, L, r) → L ≤ 0) ∧
        (discrete = true → ∀ V L r, getRowDT n'.1 (realRow x) (realRow (w.dynNum k' x)) = .ok (V, L, r) → L ≤ 0) := by
    rintro p d hp hd ⟨c1, c2⟩
    have hxp := refuted_in_data h2 h3 hx hp
    have hl := c1 _ (pair_of_sample (w := w) (T := T) (θ := (n'.1, k')) hxp hd)
    refine ⟨fun hllo pt hpt => ?_, fun hd' V L r hr => ?_, fun hd' V L r hr => ?_⟩
    · rw [← val_certValue hn'.1 c.quad discrete k' hpt]
      exact c2 hllo x hxp
    · simp only [trainValues, hd', Bool.false_eq_true, if_false, hr] at hl
      exact hl
    · simp only [trainValues, hd', if_true, hr] at hl
      exact hl
  unfold trainedLearn at h4
  dsimp only at h4
  split at h4
  swap; · cases h4
  rcases hct with hc | hc
  · rw [hc] at h4
    dsimp only at h4
    cases hr : lyapLearn (lyapAcc c.llo) (trainValues K c.quad discrete) (trainDyn T w.dynNum) (T.step st2.iters) st2.S st2.Sdot (st2.net.1, st2.ctrl) with
    | error e => unfold trainDyn at hr; rw [hr] at h4; cases h4
    | ok v =>
      have hr' := hr
      unfold trainDyn at hr'
      rw [hr'] at h4
      cases h4
      cases hp : Dict.get? st2.S XD with
      | none =>
        obtain ⟨j', -, -, -, ss, -, q1, q2⟩ := trainLoop_spec _ _ _ _ _ _ _ _ _ hr
        have hbad : ∀ θ, lyapPass (lyapAcc c.llo) (trainValues K c.quad discrete) (trainDyn T w.dynNum) st2.S st2.Sdot θ = .error .keyError := by
          intro θ
          unfold lyapPass Dict.get
          rw [hp]; rfl
        exfalso
        rcases Nat.eq_zero_or_pos j' with e | e
        · subst e
          obtain ⟨s', hs'⟩ := q2 (by decide)
          rw [hbad] at hs'; cases hs'
        · have := q1 0 e
          rw [hbad] at this; cases this
      | some p =>
        obtain ⟨d, hl, hd⟩ := aligned_labelled (w := w) (c := c) (discrete := discrete) hdyn hsall hp
        obtain ⟨a1, a2, a3, a4⟩ := C35_lyapunov_learn c.llo _ _ _ st2.S st2.Sdot _ v.1 v.2 p d hl hr
        exact ⟨v.2, a1, a2, a3, fun hm => concl p d hp (hd _) (a4 hm)⟩
  · rw [hc] at h4
    dsimp only at h4
    cases hr : roaLearn c.llo (trainValues K c.quad discrete) trainOut (trainDyn T w.dynNum) (T.step st2.iters) st2.S st2.Sdot (st2.net.1, st2.ctrl) with
    | error e => unfold trainDyn at hr; rw [hr] at h4; cases h4
    | ok v =>
      have hr' := hr
      unfold trainDyn at hr'
      rw [hr'] at h4
      cases h4
      obtain ⟨⟨θ', jj⟩, hlp, hrest⟩ := except_bind_ok hr
      obtain ⟨pi, hpi, -⟩ := except_bind_ok hrest
      cases hp : Dict.get? st2.S XD with
      | none =>
        obtain ⟨j', -, -, -, ss, -, q1, q2⟩ := trainLoop_spec _ _ _ _ _ _ _ _ _ hlp
        have hbad : ∀ θ, lyapPass (roaAcc c.llo) (trainValues K c.quad discrete) (trainDyn T w.dynNum) st2.S st2.Sdot θ = .error .keyError := by
          intro θ
          unfold lyapPass Dict.get
          rw [hp]; rfl
        exfalso
        rcases Nat.eq_zero_or_pos j' with e | e
        · subst e
          obtain ⟨s', hs'⟩ := q2 (by decide)
          rw [hbad] at hs'; cases hs'
        · have := q1 0 e
          rw [hbad] at this; cases this
      | some p =>
        obtain ⟨d, hl, hd⟩ := aligned_labelled (w := w) (c := c) (discrete := discrete) hdyn hsall hp
        obtain ⟨a1, a2, a3, a4, -⟩ := C35_roa_learn c.llo _ _ _ _ st2.S st2.Sdot _ v.1 v.2.1 v.2.2 p d pi hl hpi hr
        exact ⟨v.2.1, a1, a2, a3, fun hm => concl p d hp (hd _) (a4 hm)⟩

theorem trainLoop_first {Θ σ : Type} {check : ℕ → σ → Θ → Except Err (Bool × σ)} {step : ℕ → Θ → Θ} {s : σ} {θ : Θ} {r}
    (h : trainLoop check step learnLoops 0 s θ 0 = .ok r) : ∃ b, check 0 s θ = .ok b := by
  unfold learnLoops trainLoop at h
  cases hc : check 0 s θ with
  | error e => rw [hc] at h; cases h
  | ok b => exact ⟨b, rfl⟩

theorem catLabels_get {P : Type} {S : Dict String (List P)} : ∀ {L : List String} {r : List P}, catLabels S L = .ok r → ∀ l ∈ L, ∃ p, Dict.get? S l = some p := by
  intro L
  induction L with
  | nil => intro r _ l hl; cases hl
  | cons a L ih =>
    intro r h l hl
    obtain ⟨p, h1, h⟩ := except_bind_ok h
    obtain ⟨q, h2, h⟩ := except_bind_ok h
    rcases List.mem_cons.1 hl with rfl | hl
    · exact ⟨p, get_ok.1 h1⟩
    · exact ih h2 l hl

theorem barrierLearn_labels {Θ P : Type} {acc} {v : Values Θ P} {f step S Sdot θ r} (h : barrierLearn acc v f step S Sdot θ = .ok r) :
    ∀ l ∈ [XD, XI, XU], ∃ p, Dict.get? S l = some p := by
  unfold barrierLearn at h
  split at h
  swap; · cases h
  obtain ⟨b, hb⟩ := trainLoop_first h
  obtain ⟨a, ha, -⟩ := except_bind_ok hb
  obtain ⟨p1, h1, ha⟩ := except_bind_ok ha
  obtain ⟨p2, h2, ha⟩ := except_bind_ok ha
  obtain ⟨p3, h3, ha⟩ := except_bind_ok ha
  exact catLabels_get h3

theorem rswsLearn_labels {Θ P : Type} {v : Values Θ P} {f step S Sdot θ r} (h : rswsLearn v f step S Sdot θ = .ok r) :
    ∀ l ∈ [XD, XI, XU, XGB, XG], ∃ p, Dict.get? S l = some p := by
  unfold rswsLearn at h
  split at h
  swap; · cases h
  obtain ⟨b, hb⟩ := trainLoop_first h
  obtain ⟨a, ha, -⟩ := except_bind_ok hb
  obtain ⟨p1, h1, ha⟩ := except_bind_ok ha
  obtain ⟨p2, h2, ha⟩ := except_bind_ok ha
  obtain ⟨p3, h3, ha⟩ := except_bind_ok ha
  obtain ⟨p4, h4, ha⟩ := except_bind_ok ha
  obtain ⟨p5, h5, ha⟩ := except_bind_ok ha
  obtain ⟨p6, h6, ha⟩ := except_bind_ok ha
  exact catLabels_get h6

namespace Spec

/-- By how much training wants the conditions on initial and unsafe samples to hold. -/
noncomputable def trainMargin : CertType → ℝ
  | .BARRIERALT => 1/20
  | _ => 0

/-- Whether the quadratic factor is part of the function training looks at. -/
def trainQuad (c : SynthCfg) (discrete : Bool) : Bool :=
  match c.cert with
  | .RWA | .RWS | .RSWA | .RSWS => c.quad
  | _ => c.quad && !discrete

end Spec

/-- **C74 (progress, barrier and reach certificates).** In every complete run: a training call that ends before its 1000th step returns a function that is
non-positive at every earlier counterexample of the initial set and non-negative at every earlier counterexample of the unsafe set (with a margin of 0.05 for
BARRIERALT). -/
theorem C74_progress_barrier (hct : SingleCert c.cert) (hct' : c.cert ≠ .LYAPUNOV ∧ c.cert ≠ .ROA) (hdyn : T.controlled = false → ∀ k k', w.dynNum k = w.dynNum k')
    (hstep : ∀ i t θ, Usable c.lib c.nVars θ.1 → Usable c.lib c.nVars (T.step i t θ).1)
    (net : Net × ℚ) (ctrl : K) (S : Dict String (List (List ℚ))) (hnet : Usable c.lib c.nVars net.1) (j k : ℕ) (st st1 st2)
    (h1 : Steps c.loop (singleComponents w c discrete (trainedLearn T c discrete w.dynNum))
      (initState (singleComponents w c discrete (trainedLearn T c discrete w.dynNum)) net ctrl S) j st)
    (h2 : loopBody c.loop (singleComponents w c discrete (trainedLearn T c discrete w.dynNum)) st = .ok (false, st1))
    (h3 : Steps c.loop (singleComponents w c discrete (trainedLearn T c discrete w.dynNum)) st1 k st2)
    (n' : Net × ℚ) (k' : K) (h4 : trainedLearn T c discrete w.dynNum st2 = .ok (n', k')) :
    ∃ m, 1 ≤ m ∧ m ≤ 1000 ∧ (n'.1, k') = afterSteps (T.step st2.iters) m (st2.net.1, st2.ctrl) ∧
      (m < 1000 → ∀ x (p : Pt c.nVars), coordList p = realRow x →
        (Refuted (singleComponents w c discrete (trainedLearn T c discrete w.dynNum)) st XI x → certValue (-1) (trainQuad c discrete) n'.1 p ≤ -trainMargin c.cert) ∧
        (Refuted (singleComponents w c discrete (trainedLearn T c discrete w.dynNum)) st XU x → trainMargin c.cert ≤ certValue (-1) (trainQuad c discrete) n'.1 p)) := by
  have hsall : Steps c.loop (singleComponents w c discrete (trainedLearn T c discrete w.dynNum))
      (initState (singleComponents w c discrete (trainedLearn T c discrete w.dynNum)) net ctrl S) (j + 1 + k) st2 := by
    clear h4
    induction h3 with
    | refl => exact .tail h1 h2
    | tail _ hb ih => exact .tail ih hb
  have hus2 := steps_usable (w := w) (discrete := discrete) hstep hnet trained_after hsall
  obtain ⟨m0, hm0⟩ := trained_after (w := w) st2 n' k' h4
  have hn' : Usable c.lib c.nVars n'.1 := by
    have := afterSteps_usable (hstep st2.iters) (st2.net.1, st2.ctrl) hus2 m0
    rw [← hm0] at this
    exact this
  have concl : ∀ (pi pu : List (List ℚ)) (mg : ℝ) (dd : Bool), Dict.get? st2.S XI = some pi → Dict.get? st2.S XU = some pu →
      (c.quad && !dd) = trainQuad c discrete → mg = trainMargin c.cert →
      (∀ x ∈ pi, (trainValues K c.quad dd).val (n'.1, k') x ≤ -mg) → (∀ x ∈ pu, mg ≤ (trainValues K c.quad dd).val (n'.1, k') x) →
      ∀ x (p : Pt c.nVars), coordList p = realRow x →
        (Refuted (singleComponents w c discrete (trainedLearn T c discrete w.dynNum)) st XI x → certValue (-1) (trainQuad c discrete) n'.1 p ≤ -trainMargin c.cert) ∧
        (Refuted (singleComponents w c discrete (trainedLearn T c discrete w.dynNum)) st XU x → trainMargin c.cert ≤ certValue (-1) (trainQuad c discrete) n'.1 p) := by
    intro pi pu mg dd hi hu hq hm c1 c2 x p hp
    rw [← hq, ← hm, ← val_certValue hn'.1 c.quad dd k' hp]
    exact ⟨fun hx => c1 x (refuted_in_data h2 h3 hx hi), fun hx => c2 x (refuted_in_data h2 h3 hx hu)⟩
  unfold trainedLearn at h4
  dsimp only at h4
  split at h4
  swap; · cases h4
  have fin : ∀ {r : Except Err ((Net × K) × ℕ)} {q : ℚ}, r.map (fun r => ((r.1.1, q), r.1.2)) = .ok (n', k') → ∃ m, r = .ok ((n'.1, k'), m) := by
    intro r q h
    cases r with
    | error e => cases h
    | ok v => cases h; exact ⟨v.2, rfl⟩
  obtain ⟨a1, a2, a3⟩ := hct
  cases hc : c.cert with
  | STABLESAFE => exact absurd hc a1
  | RAR => exact absurd hc a2
  | CUSTOM => exact absurd hc a3
  | LYAPUNOV => exact absurd hc hct'.1
  | ROA => exact absurd hc hct'.2
  | BARRIER =>
    rw [hc] at h4
    obtain ⟨m, hm⟩ := fin h4
    have hl := barrierLearn_labels hm
    obtain ⟨pd, hd⟩ := hl XD (by simp)
    obtain ⟨pi, hi⟩ := hl XI (by simp)
    obtain ⟨pu, hu⟩ := hl XU (by simp)
    obtain ⟨dd, hld, -⟩ := aligned_labelled (w := w) (c := c) (discrete := discrete) hdyn hsall hd
    obtain ⟨di, hli, -⟩ := aligned_labelled (w := w) (c := c) (discrete := discrete) hdyn hsall hi
    obtain ⟨du, hlu, -⟩ := aligned_labelled (w := w) (c := c) (discrete := discrete) hdyn hsall hu
    obtain ⟨b1, b2, b3, b4⟩ := C35_barrier_learn T.symmetric _ _ _ _ _ _ _ m pd pi pu dd di du hld hli hlu hm
    rw [← hc]
    refine ⟨m, b1, b2, b3, fun hlt => ?_⟩
    have b5 := b4 hlt m (Or.inl rfl)
    rw [← b3] at b5
    exact concl pi pu 0 discrete hi hu (by simp [trainQuad, hc]) (by simp [trainMargin, hc]) (by simpa using b5.1) b5.2.1
  | BARRIERALT =>
    rw [hc] at h4
    obtain ⟨m, hm⟩ := fin h4
    have hl := barrierLearn_labels hm
    obtain ⟨pd, hd⟩ := hl XD (by simp)
    obtain ⟨pi, hi⟩ := hl XI (by simp)
    obtain ⟨pu, hu⟩ := hl XU (by simp)
    obtain ⟨dd, hld, -⟩ := aligned_labelled (w := w) (c := c) (discrete := discrete) hdyn hsall hd
    obtain ⟨di, hli, -⟩ := aligned_labelled (w := w) (c := c) (discrete := discrete) hdyn hsall hi
    obtain ⟨du, hlu, -⟩ := aligned_labelled (w := w) (c := c) (discrete := discrete) hdyn hsall hu
    obtain ⟨b1, b2, b3, b4⟩ := C35_barrierAlt_learn _ _ _ _ _ _ _ m pd pi pu dd di du hld hli hlu hm
    rw [← hc]
    refine ⟨m, b1, b2, b3, fun hlt => ?_⟩
    have b5 := b4 hlt m (Or.inl rfl)
    rw [← b3] at b5
    exact concl pi pu (1/20) discrete hi hu (by simp [trainQuad, hc]) (by simp [trainMargin, hc]) b5.1 b5.2.1
  | RWA | RWS =>
    rw [hc] at h4
    obtain ⟨m, hm⟩ := fin h4
    have hl := barrierLearn_labels hm
    obtain ⟨pd, hd⟩ := hl XD (by simp)
    obtain ⟨pi, hi⟩ := hl XI (by simp)
    obtain ⟨pu, hu⟩ := hl XU (by simp)
    obtain ⟨dd, hld, -⟩ := aligned_labelled (w := w) (c := c) (discrete := discrete) hdyn hsall hd
    obtain ⟨di, hli, -⟩ := aligned_labelled (w := w) (c := c) (discrete := discrete) hdyn hsall hi
    obtain ⟨du, hlu, -⟩ := aligned_labelled (w := w) (c := c) (discrete := discrete) hdyn hsall hu
    obtain ⟨b1, b2, b3, b4⟩ := C35_rws_learn _ _ _ _ _ _ _ m pd pi pu dd di du hld hli hlu hm
    rw [← hc]
    refine ⟨m, b1, b2, b3, fun hlt => ?_⟩
    have b5 := b4 hlt m (Or.inl rfl)
    rw [← b3] at b5
    exact concl pi pu 0 false hi hu (by simp [trainQuad, hc]) (by simp [trainMargin, hc]) (by simpa using b5.1) b5.2.1
  | RSWA | RSWS =>
    rw [hc] at h4
    obtain ⟨m, hm⟩ := fin h4
    have hl := rswsLearn_labels hm
    obtain ⟨pd, hd⟩ := hl XD (by simp)
    obtain ⟨pi, hi⟩ := hl XI (by simp)
    obtain ⟨pu, hu⟩ := hl XU (by simp)
    obtain ⟨pb, hb⟩ := hl XGB (by simp)
    obtain ⟨pg, hg⟩ := hl XG (by simp)
    obtain ⟨dd, hld, -⟩ := aligned_labelled (w := w) (c := c) (discrete := discrete) hdyn hsall hd
    obtain ⟨di, hli, -⟩ := aligned_labelled (w := w) (c := c) (discrete := discrete) hdyn hsall hi
    obtain ⟨du, hlu, -⟩ := aligned_labelled (w := w) (c := c) (discrete := discrete) hdyn hsall hu
    obtain ⟨db, hlb, -⟩ := aligned_labelled (w := w) (c := c) (discrete := discrete) hdyn hsall hb
    obtain ⟨dg, hlg, -⟩ := aligned_labelled (w := w) (c := c) (discrete := discrete) hdyn hsall hg
    obtain ⟨b1, b2, b3, b4⟩ := C35_rsws_learn _ _ _ _ _ _ _ m pd pi pu pb pg dd di du db dg hld hli hlu hlb hlg hm
    rw [← hc]
    refine ⟨m, b1, b2, b3, fun hlt => ?_⟩
    have b5 := b4 hlt m (Or.inl rfl)
    rw [← b3] at b5
    exact concl pi pu 0 false hi hu (by simp [trainQuad, hc]) (by simp [trainMargin, hc]) (by simpa using b5.1) b5.2.1

end


/-! ### examples -/

/-- A trainer that never changes a 1-dimensional network and has no controller. -/
def exTrainer : Trainer Unit := ⟨fun _ _ θ => θ, false, true, fun _ => 0⟩

theorem exSatWorld_fair : FairWorld (exSatWorld 1 (Net × ℚ) [.neg (.var 0)]) 1 where
  dyn _ := rfl
  num _ x hx := by simpa [exSatWorld] using hx
  val i k φ _ := exSatWorld_val _ _ _ i k φ
  cons _ _ _ _ := ⟨[], rfl, fun _ => rfl, fun r hr => by cases hr⟩


/-- A safety problem in dimension 1. -/
def exSafeCfg : SynthCfg := ⟨.z3, 1, .BARRIER, [(XI, .rectangle [0] [1] none), (XU, .rectangle [3] [4] none), (XD, .rectangle [-5] [5] none)], false, 3, false, 7⟩

theorem exLyapNet_usable : Usable .z3 1 exLyap.net := by
  refine ⟨⟨rfl, by simp [exLyap, shapedFrom], by simp [exLyap], ⟨_, rfl, rfl⟩⟩, ?_⟩
  intro a ha
  simp [usedActs, exLyap] at ha
  subst ha
  rfl

theorem exSafe_sets : UsableSets exSafeCfg.nVars exSafeCfg.domains ∧ ∀ l ∈ setsOf exSafeCfg.cert, ∃ S, Dict.get? exSafeCfg.domains l = some S := by
  constructor
  · intro e he
    simp only [exSafeCfg, List.mem_cons, List.not_mem_nil, or_false] at he
    rcases he with rfl | rfl | rfl <;> exact ⟨by simp [WF, exSafeCfg, noSel], fun h => absurd h (by decide)⟩
  · intro l hl
    simp only [exSafeCfg, setsOf, List.mem_cons, List.not_mem_nil, or_false] at hl
    rcases hl with rfl | rfl | rfl <;> exact ⟨_, rfl⟩

/-- The initial data of the example runs. -/
def exSafeData : Dict String (List (List ℚ)) := [(XD, [[1/2]]), (XI, [[1/2]]), (XU, [[3]])]

theorem exSafe_data : (∀ l p, Dict.get? exSafeData l = some p → ∀ r ∈ p, r.length = 1) ∧ (∀ l ∈ trainLabels exSafeCfg.cert, ∃ p, Dict.get? exSafeData l = some p ∧ p ≠ []) ∧
    ∀ l ∈ Dict.keys exSafeData, hasLie l = true → l = XD := by
  refine ⟨fun l p hp r hr => ?_, fun l hl => ?_, fun l hl => ?_⟩
  · have hm := Dict.get?_eq_some_mem hp
    simp only [exSafeData, List.mem_cons, Prod.mk.injEq, List.not_mem_nil, or_false] at hm
    rcases hm with ⟨-, rfl⟩ | ⟨-, rfl⟩ | ⟨-, rfl⟩ <;> (rw [List.mem_singleton.1 hr]; rfl)
  · simp only [exSafeCfg, trainLabels, List.mem_cons, List.not_mem_nil, or_false] at hl
    rcases hl with rfl | rfl | rfl <;> exact ⟨_, rfl, by simp⟩
  · exact (C30_lie_labels l (by
      simp only [exSafeData, Dict.keys, List.map_cons, List.map_nil, List.mem_cons, List.not_mem_nil, or_false] at hl ⊢
      tauto)).1

/-- Non-vacuity of `C74_run_total`: a complete run with training that returns. -/
example (g g' : Rng) : ∃ out, Solves exSafeCfg.loop (singleComponents ((exSatWorld 1 _ [.neg (.var 0)]).withEstimate g g' exSafeCfg) exSafeCfg false
    (trainedLearn exTrainer exSafeCfg false (exSatWorld 1 (Net × ℚ) [.neg (.var 0)]).dynNum)) (exLyap.net, 0) () exSafeData out ∧ (out.iters : ℤ) ≤ 8 := by
  rcases C74_run_total (exSatWorld 1 _ [.neg (.var 0)]) exSafeCfg false exTrainer g g' (Or.inl rfl) (by refine ⟨?_, ?_, ?_⟩ <;> intro h <;> cases h) (by decide)
    exSafe_sets.1 exSafe_sets.2 (fun h => by cases h) (fun h => by cases h) exSatWorld_fair (fun h => by cases h) (fun _ _ _ h => h) (exLyap.net, 0) () exSafeData
    exLyapNet_usable exSafe_data.1 exSafe_data.2.1 exSafe_data.2.2 with h | ⟨h, -⟩
  · exact h
  · cases h

/-- Non-vacuity of `C74_progress_barrier`: in the same problem, the point 1 is a counterexample for the initial set in the first pass, and the second training call
returns. -/
example (g g' : Rng) : ∃ st st1 n' k', Steps exSafeCfg.loop (singleComponents ((exSatWorld 1 _ [.neg (.var 0)]).withEstimate g g' exSafeCfg) exSafeCfg false
      (trainedLearn exTrainer exSafeCfg false (exSatWorld 1 (Net × ℚ) [.neg (.var 0)]).dynNum))
      (initState (singleComponents ((exSatWorld 1 _ [.neg (.var 0)]).withEstimate g g' exSafeCfg) exSafeCfg false
        (trainedLearn exTrainer exSafeCfg false (exSatWorld 1 (Net × ℚ) [.neg (.var 0)]).dynNum)) (exLyap.net, 0) () exSafeData) 0 st ∧
    loopBody exSafeCfg.loop (singleComponents ((exSatWorld 1 _ [.neg (.var 0)]).withEstimate g g' exSafeCfg) exSafeCfg false
      (trainedLearn exTrainer exSafeCfg false (exSatWorld 1 (Net × ℚ) [.neg (.var 0)]).dynNum)) st = .ok (false, st1) ∧
    Refuted (singleComponents ((exSatWorld 1 _ [.neg (.var 0)]).withEstimate g g' exSafeCfg) exSafeCfg false
      (trainedLearn exTrainer exSafeCfg false (exSatWorld 1 (Net × ℚ) [.neg (.var 0)]).dynNum)) st XI [1] ∧
    trainedLearn exTrainer exSafeCfg false (exSatWorld 1 (Net × ℚ) [.neg (.var 0)]).dynNum st1 = .ok (n', k') := by
  set w := exSatWorld 1 (Net × ℚ) [.neg (.var 0)] with hw
  have hct : SingleCert exSafeCfg.cert := by refine ⟨?_, ?_, ?_⟩ <;> intro h <;> cases h
  set C := singleComponents (w.withEstimate g g' exSafeCfg) exSafeCfg false (trainedLearn exTrainer exSafeCfg false w.dynNum) with hC
  set st := initState C (exLyap.net, 0) () exSafeData with hst
  have hready : RunReady exSafeCfg st := ⟨exLyapNet_usable, initState_data (fun x hx => exSatWorld_fair.num () x hx) exSafe_data.1 exSafe_data.2.1 exSafe_data.2.2⟩
  obtain ⟨n1, k1, hl, hn1⟩ : ∃ n k, trainedLearn exTrainer exSafeCfg false w.dynNum st = .ok (n, k) ∧ Usable exSafeCfg.lib exSafeCfg.nVars n.1 := by
    rcases trainedLearn_total exTrainer exSafeCfg false w.dynNum hct (fun _ _ _ h => h) st hready.1 hready.2 with ⟨h, -⟩ | h
    · cases h
    · exact h
  obtain ⟨m, hm⟩ := trained_after (w := w) st n1 k1 hl
  have hid : ∀ m θ, afterSteps (exTrainer.step st.iters) m θ = θ := by
    intro m θ
    induction m with
    | zero => rfl
    | succ m ih => exact ih
  rw [hid] at hm
  obtain ⟨net1, b1⟩ := n1
  have hnet : net1 = exLyap.net := congrArg Prod.fst hm
  subst hnet
  obtain ⟨V, Vdot, cex, ht, hv, hx⟩ : ∃ V Vdot cex, C.translate (exLyap.net, b1) k1 = .ok (V, Vdot) ∧ C.verify st.iters (exLyap.net, b1) V Vdot = .ok (false, cex) ∧
      ∃ rows, Dict.get? cex XI = some rows ∧ [1] ∈ rows := ⟨_, _, _, rfl, rfl, _, rfl, List.mem_append.2 (Or.inr (List.mem_singleton.2 rfl))⟩
  have hb : ∃ st1, loopBody exSafeCfg.loop C st = .ok (false, st1) ∧ RunReady exSafeCfg st1 := by
    rcases pass_ready w exSafeCfg false exTrainer g g' (Or.inl rfl) hct exSafe_sets.1 exSafe_sets.2 (fun h => by cases h) (fun h => by cases h) exSatWorld_fair
      (fun h => by cases h) (fun _ _ _ h => h) st hready with ⟨h, -⟩ | ⟨b, st1, h1, h2⟩
    · cases h
    · cases b with
      | false => exact ⟨st1, h1, h2⟩
      | true =>
        obtain ⟨n, kk, V', Vdot', found, cex', traj, s2, q1, q2, q3, -, -, q5⟩ := loopBody_inv h1
        rw [show C.learn st = .ok ((exLyap.net, b1), k1) from hl] at q1
        cases q1
        rw [ht] at q2
        cases q2
        rw [hv] at q3
        cases q3
        simp only [Bool.false_eq_true, if_false] at q5
        have e1 : st.timedOut = false := rfl
        rw [if_neg (by rw [e1]; decide), if_neg (by rw [show st.iters = 0 from rfl]; decide)] at q5
        exact absurd q5.1 (by decide)
  obtain ⟨st1, hb1, hb2⟩ := hb
  obtain ⟨rows, hr, hm1⟩ := hx
  obtain ⟨n', k', h'⟩ : ∃ n k, trainedLearn exTrainer exSafeCfg false w.dynNum st1 = .ok (n, k) := by
    rcases trainedLearn_total exTrainer exSafeCfg false w.dynNum hct (fun _ _ _ h => h) st1 hb2.1 hb2.2 with ⟨h, -⟩ | ⟨n, k, h, -⟩
    · cases h
    · exact ⟨n, k, h⟩
  exact ⟨st, st1, n', k', .refl _, hb1, ⟨_, _, V, Vdot, cex, rows, hl, ht, hv, hr, hm1⟩, h'⟩

/-- Non-vacuity of `C74_step_usable`: gradient steps that scale all weights. -/
example : KeepsDims (List.map fun l => ⟨l.weight.map (fun r => r.map (· * (9/10))), l.bias.map fun b => b.map (· * (9/10))⟩) := by
  intro ls
  induction ls with
  | nil => exact .nil
  | cons l ls ih =>
    refine .cons ⟨by simp [Function.comp_def], fun b hb => ⟨b.map (· * (9/10)), by simp [hb], by simp⟩⟩ ih

/-- **C74 (the level of a region of attraction).** The level that a training round returns for a ROA certificate is (as the machine number `T.float`) the largest
output of the returned network on the initial samples, attained at one of them; it is the level that is reported once the certificate is verified. -/
theorem C74_roa_level {K : Type} (T : Trainer K) (c : SynthCfg) (discrete : Bool) (dynNum : K → List ℚ → List ℚ) (hc : c.cert = .ROA)
    (st : LoopState (Net × ℚ) K (List ℚ) Term) (net' : Net) (b : ℚ) (k' : K) (h : trainedLearn T c discrete dynNum st = .ok ((net', b), k'))
    (g g' : Rng) (doms : Dict String PySet) :
    ∃ xs v, Dict.get st.S XI = .ok xs ∧ b = T.float v ∧ (∀ x ∈ xs, ∀ y, net'.forward (realRow x) = .ok y → y ≤ v) ∧
      (∃ x ∈ xs, ∀ y, net'.forward (realRow x) = .ok y → y = v) ∧ estimateBetaOf g g' c.cert doms (net', b) = .ok (.level b) := by
  have ho : ∀ x y, net'.forward (realRow x) = .ok y → trainOut (net', k') x = y := by
    intro x y hy
    simp [trainOut, hy]
  unfold trainedLearn at h
  rw [hc] at h
  dsimp only at h
  split at h
  · cases hr : roaLearn c.llo (trainValues K c.quad discrete) trainOut (if T.controlled = true then some fun θ => dynNum θ.2 else none) (T.step st.iters) st.S
        st.Sdot (st.net.1, st.ctrl) with
    | error e => rw [hr] at h; cases h
    | ok v =>
      rw [hr] at h
      cases h
      obtain ⟨⟨θ', j⟩, h1, h2⟩ := except_bind_ok hr
      obtain ⟨si, h3, h2⟩ := except_bind_ok h2
      obtain ⟨b, h4, h2⟩ := except_bind_ok h2
      cases h2
      obtain ⟨m1, x, hx, m2⟩ := computeMaximum_spec _ _ _ h4
      refine ⟨si, b, h3, rfl, fun x hx y hy => ?_, ⟨x, hx, fun y hy => ?_⟩, by rw [hc]; rfl⟩
      · rw [← ho x y hy]; exact m1 x hx
      · rw [← ho x y hy]; exact m2
  · cases h

end Fossil
