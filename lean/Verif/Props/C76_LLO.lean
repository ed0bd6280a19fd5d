import Verif.Props.C77_ControlFile

/-!
# C76 / C77 with LLO: stability when the positivity query is left out

With `LLO` the verifier asks no positivity query: V > 0 away from 0 is meant to hold by construction (learner.py:269-294, certificate.py:276-280). Here
the construction (learner.py:40-88) and the training of the whole run are part of the statement: the network starts as the constructor builds it and every
optimiser step is the step of `Lyapunov.learn`, with arbitrary numbers.
-/

namespace Fossil
open Spec Set

namespace Spec

/-- The hidden activations end in one of the non-negative ones (learner.py:269-294), with one activation per hidden layer. -/
def LloActs (hidden : List ℕ) (acts : List ActivationType) : Prop :=
  acts.length = hidden.length ∧ ∃ a x, acts.getLast? = some a ∧ activationFcn a = some x ∧ x.isPD = true

/-- The optimiser step of `Lyapunov.learn` under LLO (certificate.py:276-280), for new parameter values chosen by any rule: with a polynomial last activation
the output layer is not a parameter, otherwise the absolute value of its weights is taken after the step. -/
def LloSteps {K : Type} (T : Trainer K) (acts : List ActivationType) : Prop :=
  ∀ as ta, actsOf acts = .ok as → takeAbs true as = .ok ta →
    ∀ i t θ, ∃ u : List Layer → List Layer, (T.step i t θ).1 = lyapNetStep true ta (fun _ => u) t θ.1

end Spec

theorem actsOf_map : ∀ {as : List ActivationType} {l : List Act}, actsOf as = .ok l → as.map activationFcn = l.map some := by
  intro as
  induction as with
  | nil => intro l h; cases h; rfl
  | cons a as ih =>
    intro l h
    unfold actsOf at h
    cases ha : activationFcn a with
    | none => rw [ha] at h; cases h
    | some x =>
      rw [ha] at h
      dsimp only at h
      cases hr : actsOf as with
      | error e => rw [hr] at h; cases h
      | ok l' =>
        rw [hr] at h
        have := Except.ok.inj h
        subst this
        simp [ha, ih hr]

theorem sameShape_trans {a b c : Net} (h : SameShape a b) (h' : SameShape b c) : SameShape a c := by
  refine ⟨h'.1.trans h.1, h'.2.1.trans h.2.1, ?_⟩
  obtain ⟨-, -, h3⟩ := h
  obtain ⟨-, -, h3'⟩ := h'
  generalize a.layers = la at *
  generalize b.layers = lb at *
  generalize c.layers = lc at *
  induction h3 generalizing lc with
  | nil => cases h3'; exact .nil
  | cons h1 _ ih =>
    cases h3' with
    | cons h2 h4 => exact .cons ⟨h2.1.trans h1.1, h2.2.trans h1.2⟩ (ih _ h4)

/-- `Lyapunov.learn` makes at least one step. -/
theorem trained_lyap_steps {K : Type} {T : Trainer K} {c : SynthCfg} {discrete : Bool} {dn : K → List ℚ → List ℚ} {st : LoopState (Net × ℚ) K (List ℚ) Term}
    {n : Net × ℚ} {k : K} (hc : c.cert = .LYAPUNOV) (h : trainedLearn T c discrete dn st = .ok (n, k)) :
    ∃ m, 1 ≤ m ∧ (n.1, k) = afterSteps (T.step st.iters) m (st.net.1, st.ctrl) := by
  unfold trainedLearn at h
  dsimp only at h
  split at h
  swap; · cases h
  rw [hc] at h
  dsimp only at h
  cases hl : lyapLearn (lyapAcc c.llo) (trainValues K c.quad discrete) (if T.controlled then some (fun θ => dn θ.2) else none) (T.step st.iters) st.S st.Sdot
      (st.net.1, st.ctrl) with
  | error e => rw [hl] at h; cases h
  | ok r =>
    rw [hl] at h
    obtain ⟨θ, m⟩ := r
    have e := Except.ok.inj h
    have e1 : (n.1, k) = θ := (congrArg (fun p : (Net × ℚ) × K => (p.1.1, p.2)) e).symm
    obtain ⟨h1, -, h3, -⟩ := trainLoop_unit (lyapPass (lyapAcc c.llo) (trainValues K c.quad discrete)
      (if T.controlled then some (fun θ => dn θ.2) else none) st.S st.Sdot) (fun a => decide (a = 100)) 1 (by norm_num) (T.step st.iters) _ θ m _ (by
        intro t s θ r hr
        obtain ⟨a, ha, hb⟩ := except_bind_ok hr
        simp only [pure, Except.pure, Except.ok.injEq, Prod.mk.injEq, Bool.and_eq_true, decide_eq_true_eq] at hb
        exact ⟨hb.1.2, a, ha, by simpa using hb.1.1⟩) hl
    exact ⟨m, h1, e1.trans h3⟩

/-- Under LLO, after at least one step from a network whose output weights are not negative or will be made so, they are not negative. -/
theorem llo_steps_nonneg {K : Type} {step : ℕ → Net × K → Net × K} {ta : Bool} (hs : ∀ t θ, ∃ u : List Layer → List Layer, (step t θ).1 = lyapNetStep true ta (fun _ => u) t θ.1)
    {θ : Net × K} (h0 : ta = false → LastNonneg θ.1) {m : ℕ} (hm : 1 ≤ m) : LastNonneg (afterSteps step m θ).1 := by
  have one : ∀ t θ, (ta = false → LastNonneg θ.1) → LastNonneg (step t θ).1 := by
    intro t θ h
    obtain ⟨u, hu⟩ := hs t θ
    rw [hu]
    exact C35_last_layer_nonneg (fun _ => u) ta θ.1 1 le_rfl h
  obtain ⟨m, rfl⟩ := Nat.exists_eq_succ_of_ne_zero (by omega : m ≠ 0)
  clear hm
  have key : ∀ j, ta = false → LastNonneg (afterSteps step j θ).1 := by
    intro j hta
    induction j with
    | zero => exact h0 hta
    | succ j ih => exact one j _ (fun _ => ih)
  exact one m _ (key m)

/-- The network the constructor builds under LLO. -/
theorem newNet_llo {n : ℕ} {hidden : List ℕ} {acts : List ActivationType} {wt : ℕ → ℕ → ℕ → ℚ} {bs : ℕ → ℕ → ℚ} {net : Net}
    (h : newNet n hidden acts true false wt bs = .ok net) :
    ∃ as ta, actsOf acts = .ok as ∧ takeAbs true as = .ok ta ∧ net.acts = as ∧ net.layers.length = hidden.length + 1 ∧
      (∀ l, net.layers.getLast? = some l → l.bias = none) ∧ (ta = false → LastNonneg net) := by
  unfold newNet at h
  obtain ⟨as, h1, h⟩ := except_bind_ok h
  obtain ⟨ta, h2, h⟩ := except_bind_ok h
  obtain ⟨-, -, h⟩ := except_bind_ok h
  have e := Except.ok.inj h
  subst e
  have hlen : ∀ (ms : List ℕ) k n', (hiddenLayers false wt bs k n' ms).length = ms.length := by
    intro ms
    induction ms with
    | nil => intro k n'; rfl
    | cons a ms ih => intro k n'; simp [hiddenLayers, ih]
  refine ⟨as, ta, h1, h2, rfl, by simp [hlen], ?_, ?_⟩
  · intro l hl
    simp only [List.getLast?_append, List.getLast?_singleton, Option.some_or, Option.some.injEq] at hl
    subst hl
    rfl
  · rintro rfl l hl
    simp only [List.getLast?_append, List.getLast?_singleton, Option.some_or, Option.some.injEq] at hl
    subst hl
    exact initLastLayer_ones _ _ _

/-- A run under LLO ends with a network that is positive by construction. -/
theorem llo_run_pd {K : Type} {T : Trainer K} {c : SynthCfg} {discrete : Bool} {w : World R K (Net × ℚ)} {dn : K → List ℚ → List ℚ} {hidden : List ℕ} {acts : List ActivationType}
    {n : ℕ} {wt : ℕ → ℕ → ℕ → ℚ} {bs : ℕ → ℕ → ℚ} {net : Net} {b0 : ℚ} {k0 : K} {S out}
    (hc : c.cert = .LYAPUNOV) (hsh : ∀ i t θ, SameShape θ.1 (T.step i t θ).1) (ha : LloActs hidden acts) (hst : LloSteps T acts)
    (hnet : newNet n hidden acts true false wt bs = .ok net)
    (hs : Solves c.loop (singleComponents w c discrete (trainedLearn T c discrete dn)) (net, b0) k0 S out) : PDNet out.net.1 := by
  obtain ⟨as, ta, h1, h2, h3, h4, h5, h6⟩ := newNet_llo hnet
  have hst := hst as ta h1 h2
  let Q : Net × ℚ → Prop := fun θ => SameShape net θ.1 ∧ (ta = false → LastNonneg θ.1)
  have shp : ∀ {st n k}, SameShape net st.net.1 → trainedLearn T c discrete dn st = .ok (n, k) → SameShape net n.1 := by
    intro st n k h0 hl
    obtain ⟨m, -, hm⟩ := trained_lyap_steps hc hl
    have := afterSteps_inv (Q := fun θ : Net × K => SameShape net θ.1) (step := T.step st.iters) (fun t θ hθ => sameShape_trans hθ (hsh _ _ _)) (st.net.1, st.ctrl) h0 m
    rw [← hm] at this
    exact this
  have nn : ∀ {st n k}, (ta = false → LastNonneg st.net.1) → trainedLearn T c discrete dn st = .ok (n, k) → LastNonneg n.1 := by
    intro st n k h0 hl
    obtain ⟨m, h1m, hm⟩ := trained_lyap_steps hc hl
    have := llo_steps_nonneg (fun t θ => hst st.iters t θ) (θ := (st.net.1, st.ctrl)) h0 h1m
    rw [← hm] at this
    exact this
  obtain ⟨k, st, hsteps, hb⟩ := hs
  have key : Q st.net := by
    clear hb
    generalize hi : initState (singleComponents w c discrete (trainedLearn T c discrete dn)) (net, b0) k0 S = s0 at hsteps
    induction hsteps with
    | refl => subst hi; exact ⟨sameShape_refl _, h6⟩
    | @tail k0 st' st'' _ hb' ih =>
      obtain ⟨k1, hk⟩ := loopBody_net hb'
      exact ⟨shp ih.1 hk, fun _ => nn ih.2 hk⟩
  obtain ⟨k1, hk⟩ := loopBody_net hb
  have hshape := shp key.1 hk
  have hlast := nn key.2 hk
  obtain ⟨-, hacts, hlay⟩ := hshape
  have hll : out.net.1.layers.length = net.layers.length := hlay.length_eq.symm
  obtain ⟨hl1, a, x, hl2, hl3, hl4⟩ := ha
  have has : as.length = acts.length ∧ as.getLast? = some x := by
    have := actsOf_map h1
    constructor
    · have := congrArg List.length this; simpa using this.symm
    · have := congrArg List.getLast? this
      rw [List.getLast?_map, List.getLast?_map, hl2] at this
      cases hx : as.getLast? with
      | none => rw [hx] at this; cases this
      | some y =>
        rw [hx] at this
        simp only [Option.map_some, hl3, Option.some.injEq] at this
        rw [this]
  refine ⟨?_, ?_, hlast⟩
  · have hbias : ∀ {l1 l2 : List Layer}, List.Forall₂ (fun l l' : Layer => l'.weight.map List.length = l.weight.map List.length ∧ l'.bias.map List.length = l.bias.map List.length) l1 l2 →
        (∀ l, l1.getLast? = some l → l.bias = none) → ∀ l, l2.getLast? = some l → l.bias = none := by
      intro l1 l2 hf
      induction hf with
      | nil => intro _ l hl; cases hl
      | @cons u v us vs huv hr ih =>
        intro h0 l hl
        cases hr with
        | nil =>
          simp only [List.getLast?_singleton, Option.some.injEq] at hl
          subst hl
          have := huv.2
          rw [h0 u rfl] at this
          simpa using this
        | cons h1 h2 =>
          rw [List.getLast?_cons_cons] at hl
          exact ih (fun l hl => h0 l (by rw [List.getLast?_cons_cons]; exact hl)) l hl
    unfold Net.isPositiveDefinite
    rw [hacts, h3, has.2]
    cases hgl : out.net.1.layers.getLast? with
    | none =>
      have : out.net.1.layers = [] := List.getLast?_eq_none_iff.1 hgl
      rw [this, h4] at hll; simp at hll
    | some l =>
      show Except.ok (x.isPD && l.bias.isNone) = _
      rw [hbias hlay h5 l hgl, hl4]; rfl
  · rw [hacts, h3, has.1, hl1, hll, h4]


section
variable {c : ConfigText} {r : Ready} {F : Pt c.nVars → Pt c.nVars} {w : World R Unit (Net × ℚ)} {T : Trainer Unit} {hidden : List ℕ} {acts : List ActivationType}

/-- **C76, stability with LLO.** As `C76_file_stability`, with the positivity query left out: for every accepted Lyapunov file with LLO whose last activation is
one of the non-negative ones, trained by the steps of `Lyapunov.learn` with arbitrary numbers, the run ends or meets a zero derivative, and a success means that the origin is
asymptotically stable. -/
theorem C76_file_stability_llo (h : FileRun c r F w T hidden acts) (hc : c.cert = .LYAPUNOV) (hllo : c.llo = true)
    (hz : Vanishing acts) (ha : LloActs hidden acts) (hst : LloSteps T acts) (fl : ℝ → ℚ)
    (gs : ℕ → Rng) (g g' : Rng) (wt : ℕ → ℕ → ℕ → ℚ) (bs : ℕ → ℕ → ℚ) (hdraw : DrawsSome fl gs r.data)
    (D : Set (Pt c.nVars)) (hD : Configures c.nVars c.domains "XD" D) (hn : D ∈ nhds 0) (hF : Continuous F) :
    ∃ net S, newNet c.nVars hidden acts c.llo (certBias c.cert) wt bs = .ok net ∧ initData fl gs r.data = .ok S ∧
      ((∃ out, Solves r.cfg.loop (singleComponents (w.withEstimate g g' r.cfg) r.cfg false (trainedLearn T r.cfg false w.dynNum)) (net, 0) () S out ∧
        (out.iters : ℤ) ≤ c.maxIters + 1 ∧ (out.found = true → AsympStable F)) ∨
      (∃ k st, Steps r.cfg.loop (singleComponents (w.withEstimate g g' r.cfg) r.cfg false (trainedLearn T r.cfg false w.dynNum))
        (initState (singleComponents (w.withEstimate g g' r.cfg) r.cfg false (trainedLearn T r.cfg false w.dynNum)) (net, 0) () S) k st ∧
        MeetsZeroDerivative T r.cfg false w.dynNum st)) := by
  obtain ⟨net, S, h1, h2, h3⟩ := C76_file_run_total h (by rw [hc]; refine ⟨?_, ?_, ?_⟩ <;> intro h <;> cases h) false (fun h => by cases h) fl gs g g' wt bs hdraw
  refine ⟨net, S, h1, h2, ?_⟩
  rcases h3 with ⟨out, h3, h4⟩ | ⟨-, h3⟩
  · obtain ⟨net', h1', h5, h6⟩ := newNet_arch (n := c.nVars) h.net (certBias c.cert) wt bs
    rw [h1] at h1'; cases h1'
    obtain ⟨⟨learn, hr, hs⟩, hz'⟩ := fileRun_configRun h g g' false h5 h3
    have hcfg := ready_cfg h.accepted
    have hpd : PDNet out.net.1 := llo_run_pd (by rw [hcfg]; exact hc) h.shape ha hst (by rw [← hllo]; rw [hc] at h1; exact h1) h3
    exact Or.inl ⟨out, h3, h4, fun hf => C56_config_stability c r F _ learn hr hc D hD hn hF _ _ _ out hs hf (Or.inr hpd) (Or.inr (hz' (h6 (by rw [hc]; rfl) hz)))⟩
  · exact Or.inr h3

end

section
variable {c : ControlConfig} {w0 : ℕ → ℕ → ℕ → ℚ} {r : ReadyControl} {m : ℕ} {F : Pt c.base.nVars → Pt m → Pt c.base.nVars}
  {w : World R Controller (Net × ℚ)} {T : Trainer Controller} {hidden : List ℕ} {acts : List ActivationType}

/-- **C77, stability with LLO.** The same with a trained controller. -/
theorem C77_control_stability_llo (h : ControlFileRun c w0 r m F w T hidden acts) (hc : c.base.cert = .LYAPUNOV) (hllo : c.base.llo = true)
    (hz : Vanishing acts) (ha : LloActs hidden acts) (hst : LloSteps T acts) (fl : ℝ → ℚ)
    (gs : ℕ → Rng) (g g' : Rng) (wt : ℕ → ℕ → ℕ → ℚ) (bs : ℕ → ℕ → ℚ) (hdraw : DrawsSome fl gs r.data)
    (D : Set (Pt c.base.nVars)) (hD : Configures c.base.nVars c.base.domains "XD" D) (hn : D ∈ nhds 0) (hF : Continuous (fun z : Pt c.base.nVars × Pt m => F z.1 z.2)) :
    ∃ net S, newNet c.base.nVars hidden acts c.base.llo (certBias c.base.cert) wt bs = .ok net ∧ initData fl gs r.data = .ok S ∧
      ((∃ out, Solves r.cfg.loop (singleComponents (w.withEstimate g g' r.cfg) r.cfg false (trainedLearn T r.cfg false w.dynNum)) (net, 0) r.ctrl S out ∧
        (out.iters : ℤ) ≤ c.base.maxIters + 1 ∧ (out.found = true → AsympStable (driven F (rounded5 out.ctrl)))) ∨
      (∃ k st, Steps r.cfg.loop (singleComponents (w.withEstimate g g' r.cfg) r.cfg false (trainedLearn T r.cfg false w.dynNum))
        (initState (singleComponents (w.withEstimate g g' r.cfg) r.cfg false (trainedLearn T r.cfg false w.dynNum)) (net, 0) r.ctrl S) k st ∧
        MeetsZeroDerivative T r.cfg false w.dynNum st)) := by
  obtain ⟨net, S, h1, h2, h3⟩ := C77_control_run_total h (by rw [hc]; refine ⟨?_, ?_, ?_⟩ <;> intro h <;> cases h) false (fun h => by cases h) fl gs g g' wt bs hdraw
  refine ⟨net, S, h1, h2, ?_⟩
  rcases h3 with ⟨out, h3, h4⟩ | ⟨-, h3⟩
  · obtain ⟨net', h1', h5, h6⟩ := newNet_arch (n := c.base.nVars) h.net (certBias c.base.cert) wt bs
    rw [h1] at h1'; cases h1'
    obtain ⟨⟨learn, hr, hs⟩, -, hz'⟩ := controlFileRun_controlRun h g g' false h5 h3
    have hcfg := ready_control_cfg h.accepted
    have hpd : PDNet out.net.1 := llo_run_pd (by rw [hcfg]; exact hc) (fun i t θ => (h.shape i t θ).1) ha hst (by rw [← hllo]; rw [hc] at h1; exact h1) h3
    exact Or.inl ⟨out, h3, h4, fun hf => C59_control_stability c r m F _ learn hr hc D hD hn _ _ _ out hs hf hF (Or.inr hpd) (Or.inr (hz' (h6 (by rw [hc]; rfl) hz)))⟩
  · exact Or.inr h3

end

/-! ### example -/

/-- The Lyapunov file of C56 with LLO. -/
def exLloConfig : ConfigText := { exLyapConfig with llo := true }

/-- Leaving a layer as it is is a possible update. -/
theorem zipWith_update_self (ls : List Layer) : List.zipWith Layer.update ls ls = ls := by
  induction ls with
  | nil => rfl
  | cons l ls ih =>
    rw [List.zipWith_cons_cons, ih]
    congr 1
    cases l with
    | mk w b => cases b <;> rfl

/-- A file, a solver, an architecture and an optimiser meeting the hypotheses of `C76_file_stability_llo`. -/
theorem exLlo_run : ∃ r, FileRun exLloConfig r (fun p i => - p i) (idealWorld (Net × ℚ) exLyap.f) exTrainer [1] [.SQUARE] ∧ exLloConfig.cert = .LYAPUNOV ∧
    exLloConfig.llo = true ∧ Vanishing [.SQUARE] ∧ LloActs [1] [.SQUARE] ∧ LloSteps exTrainer [.SQUARE] ∧ (∀ fl g, DrawsSome fl g r.data) ∧
    ∃ D : Set (Pt 1), Configures 1 exLloConfig.domains "XD" D ∧ D ∈ nhds 0 := by
  have hr : ∃ data, readConfig exLloConfig = .ok ⟨⟨.z3, 1, .LYAPUNOV, exLyap.domains, true, 3, false, 10⟩, exLyap.f, data⟩ := by
    have es : readSystem exLloConfig.lib exLloConfig.nVars exLloConfig.system = .ok [.neg (.var 0)] := rfl
    have ed : readDomainTexts exLloConfig.domains = .ok [("XD", .rectangle [-1] [1] none)] := rfl
    have hp : ∃ data : Dict String Src, parseConfig .LYAPUNOV [("XD", .rectangle [-1] [1] none)] exLloConfig.nData = .ok (data, exLyap.domains) ∧
        ∃ d, initialiseDomains .z3 1 .LYAPUNOV exLyap.domains = .ok d ∧ assertState .LYAPUNOV d.keys data.keys = .ok () := ⟨_, rfl, _, rfl, rfl⟩
    obtain ⟨data, hp, d, hd, ha⟩ := hp
    refine ⟨data, ?_⟩
    have hlr : ¬ ((1 : ℚ) ≤ 0) := by norm_num
    exact readConfig_ok es (readSets_ok ed hp hd hlr rfl (Or.inl rfl) ha)
  obtain ⟨data, hr⟩ := hr
  obtain ⟨s1, s2, s3, s4⟩ := exStay_sets
  have hd : DomainsDescribed exLloConfig := by
    refine ⟨by decide, ?_⟩
    intro k s hm
    simp only [exLloConfig, exLyapConfig, List.mem_cons, Prod.mk.injEq, List.not_mem_nil, or_false] at hm
    rw [hm.2]
    exact ⟨_, s3⟩
  have hgood : GoodNet .z3 true [1] [.SQUARE] := by
    refine ⟨by simp, (fun _ => by simp), fun a ha => ?_⟩
    rw [List.mem_singleton.1 ha]
    exact ⟨.square, rfl, rfl, by intro h; cases h⟩
  refine ⟨_, ⟨Or.inl rfl, hd, minus_x_system _, hr, by decide, idealWorld_sound _ _ _, fun _ => rfl, idealWorld_fair _ _ _ rfl, (fun h => by cases h),
    fun _ _ _ => sameShape_refl _, hgood⟩, rfl, rfl, ?_, ⟨rfl, .SQUARE, .square, rfl, rfl, rfl⟩, ?_,
    fun fl g => C76_draws_some _ _ hd hr (Or.inl rfl) ?_ fl g, ?_⟩
  · intro a ha
    rw [List.mem_singleton.1 ha]
    decide
  · intro as ta h1 h2 i t θ
    have e1 : as = [.square] := by cases h1; rfl
    subst e1
    cases h2
    refine ⟨id, ?_⟩
    obtain ⟨⟨n, ls, as⟩, k⟩ := θ
    rcases List.eq_nil_or_concat' ls with e | ⟨l0, l, e⟩
    · subst e; rfl
    · subst e
      have : List.zipWith Layer.update l0 (l0 ++ [l]) = l0 := by
        have aux : ∀ (xs ys : List Layer), List.zipWith Layer.update xs (xs ++ ys) = List.zipWith Layer.update xs xs := by
          intro xs ys
          induction xs with
          | nil => rfl
          | cons x xs ih => simp [ih]
        rw [aux, zipWith_update_self]
      simp [exTrainer, lyapNetStep, optimStep, this, Act.isPolynomialName]
  · show ∀ e ∈ [("XD", 10)], 0 < e.2
    decide
  · refine ⟨_, ⟨_, by simp [exLloConfig, exLyapConfig], s3⟩, ?_⟩
    have : {p : Pt 1 | ∀ i : Fin 1, entry [-1] i ≤ p i ∧ p i ≤ entry [1] i} = (fun p : Pt 1 => p 0) ⁻¹' Icc (-1) 1 := by
      ext p; simp [entry, Fin.forall_fin_one]
    rw [this]
    exact (continuous_apply (0 : Fin 1)).continuousAt.preimage_mem_nhds (Icc_mem_nhds (by simp) (by simp))

end Fossil
