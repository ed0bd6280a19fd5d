/-
C69: the first of two functions is frozen once its conditions have been verified.
-/
import Verif.Freeze
import Verif.Props.C46_EndToEnd
import Verif.Props.C64_Custom

namespace Fossil

open Spec Set

variable {R K : Type}

namespace Spec

/-- The solver always answers: an answer that is not "sat" is "unsat". -/
def AlwaysAnswers {R K N : Type} (w : World R K N) : Prop :=
  ∀ i k φ, w.backend.isSat (w.oracle i k φ) = false → w.backend.isUnsat (w.oracle i k φ) = true

end Spec

/-- dReal always answers: a result is a box or `None`. -/
theorem dreal_answers {N : Type} (w : World (Option Box) K N) (hb : w.backend = drealBackend) : AlwaysAnswers w := by
  intro i k φ h
  rw [hb] at h ⊢
  cases e : w.oracle i k φ with
  | none => rfl
  | some b => rw [e] at h; cases h

/-- z3 always answers if it never says "unknown". -/
theorem smt_answers {N : Type} (w : World Answer K N) (hb : w.backend = smtBackend) (h : ∀ i k φ, w.oracle i k φ ≠ .unknown) :
    AlwaysAnswers w := by
  intro i k φ hs
  rw [hb] at hs ⊢
  cases e : w.oracle i k φ with
  | sat m => rw [e] at hs; cases hs
  | unsat => rfl
  | unknown => exact absurd e (h i k φ)

/-! ### the flag -/

variable {w : World R K ((Net × ℚ) × Net)} {c : SynthCfg} {controlled : Bool}
  {opt : LoopState (((Net × ℚ) × Net) × Bool) K (List ℚ) (Term × Term) → Except Err (((Net × ℚ) × Net) × K)}

/-- The first learner is frozen in this state (at the start of the next pass). -/
def frozenIn (c : SynthCfg) (controlled : Bool) {E : Type} (st : LoopState (((Net × ℚ) × Net) × Bool) K (List ℚ) E) : Bool :=
  freezeAfter c.cert controlled st.net.2 st.cex

theorem freezeLearn_inv {cert : CertType} {E : Type} {opt : LoopState (((Net × ℚ) × Net) × Bool) K (List ℚ) E → Except Err (((Net × ℚ) × Net) × K)}
    {st n k} (h : freezeLearn cert controlled opt st = .ok (n, k)) :
    n.2 = freezeAfter cert controlled st.net.2 st.cex ∧ (n.2 = true → n.1.1.1 = st.net.1.1.1) ∧
      ∃ m, opt st = .ok (m, k) ∧ n.1.1.2 = m.1.2 ∧ n.1.2 = m.2 ∧ (n.2 = false → n.1.1.1 = m.1.1) := by
  obtain ⟨⟨m, k'⟩, h1, h2⟩ := except_bind_ok h
  simp only [pure, Except.pure, Except.ok.injEq, Prod.mk.injEq] at h2
  obtain ⟨rfl, rfl⟩ := h2
  refine ⟨rfl, fun h => if_pos h, m, h1, rfl, rfl, fun h => ?_⟩
  simp only at h
  exact if_neg (by rw [h]; simp)

theorem pass_frozen {stop st st'} (hb : loopBody c.loop (freezeComponents w c controlled opt) st = .ok (stop, st')) :
    st'.net.2 = frozenIn c controlled st ∧ (frozenIn c controlled st = true → st'.net.1.1.1 = st.net.1.1.1) := by
  obtain ⟨k, h⟩ := loopBody_net hb
  obtain ⟨h1, h2, -⟩ := freezeLearn_inv h
  exact ⟨h1, fun hf => h2 (h1.trans hf)⟩

theorem frozen_of_flag {E : Type} {st : LoopState (((Net × ℚ) × Net) × Bool) K (List ℚ) E} (h : st.net.2 = true) :
    frozenIn c controlled st = true := by
  unfold frozenIn freezeAfter
  rw [h]; rfl

/-- **C69 (a frozen function does not change).** Once the first function is frozen, it is the same network in every later pass, also in the
result, and it stays frozen. -/
theorem C69_frozen_unchanged (w : World R K ((Net × ℚ) × Net)) (c : SynthCfg) (controlled : Bool) (opt)
    (st : LoopState (((Net × ℚ) × Net) × Bool) K (List ℚ) (Term × Term)) (hf : frozenIn c controlled st = true) (k st')
    (hs : Steps c.loop (freezeComponents w c controlled opt) st k st') :
    frozenIn c controlled st' = true ∧ st'.net.1.1.1 = st.net.1.1.1 ∧
    ∀ stop out, loopBody c.loop (freezeComponents w c controlled opt) st' = .ok (stop, out) → out.net.1.1.1 = st.net.1.1.1 := by
  have key : frozenIn c controlled st' = true ∧ st'.net.1.1.1 = st.net.1.1.1 := by
    induction hs with
    | refl => exact ⟨hf, rfl⟩
    | tail _ hb ih =>
      obtain ⟨h1, h2⟩ := pass_frozen hb
      exact ⟨frozen_of_flag (h1.trans ih.1), (h2 ih.1).trans ih.2⟩
  exact ⟨key.1, key.2, fun stop out hb => ((pass_frozen hb).2 key.1).trans key.2⟩

theorem steps_trans {N P E : Type} {cfg : LoopCfg} {C : Components N K P E} {a b d : LoopState N K P E} {i j : ℕ} (h1 : Steps cfg C a i b)
    (h2 : Steps cfg C b j d) : Steps cfg C a (i + j) d := by
  induction h2 with
  | refl => exact h1
  | tail _ hb ih => exact ih.tail hb

/-- **C69 (when it is frozen).** In a run from the start, the first function is frozen exactly if there is no controller and some pass so far
got as far as the second function's first conditions: its answers have an entry for the initial set (StableSafe) or the goal (RAR). -/
theorem C69_frozen_iff (w : World R K ((Net × ℚ) × Net)) (c : SynthCfg) (controlled : Bool) (opt) (net ctrl S) (k st)
    (hs : Steps c.loop (freezeComponents w c controlled opt) (initState (freezeComponents w c controlled opt) (net, false) ctrl S) k st) :
    frozenIn c controlled st = true ↔ controlled = false ∧
      ∃ i j s, i + j = k ∧ Steps c.loop (freezeComponents w c controlled opt) (initState (freezeComponents w c controlled opt) (net, false) ctrl S) i s ∧
        Steps c.loop (freezeComponents w c controlled opt) s j st ∧
        ((c.cert = .STABLESAFE ∧ XI ∈ Dict.keys s.cex) ∨ (c.cert = .RAR ∧ XG ∈ Dict.keys s.cex)) := by
  have hnow : ∀ s : LoopState (((Net × ℚ) × Net) × Bool) K (List ℚ) (Term × Term), frozenIn c controlled s = true ↔
      s.net.2 = true ∨ (controlled = false ∧ ((c.cert = .STABLESAFE ∧ XI ∈ Dict.keys s.cex) ∨ (c.cert = .RAR ∧ XG ∈ Dict.keys s.cex))) := by
    intro s
    unfold frozenIn freezeAfter
    cases hcc : c.cert <;> simp [freezeLabel]
  constructor
  · intro h
    generalize hs0 : initState (freezeComponents w c controlled opt) (net, false) ctrl S = s0 at hs
    induction hs with
    | refl =>
      subst hs0
      rcases (hnow _).1 h with h | ⟨h, h'⟩
      · cases h
      · exact ⟨h, 0, 0, _, rfl, .refl _, .refl _, h'⟩
    | tail hst hb ih =>
      rcases (hnow _).1 h with h | ⟨h, h'⟩
      · rw [(pass_frozen hb).1] at h
        obtain ⟨hc, i, j, s, hij, h1, h2, h3⟩ := ih h
        exact ⟨hc, i, j + 1, s, by omega, h1, h2.tail hb, h3⟩
      · exact ⟨h, _, 0, _, rfl, hst.tail hb, .refl _, h'⟩
  · rintro ⟨hc, i, j, s, -, -, h2, h3⟩
    exact (C69_frozen_unchanged w c controlled opt s ((hnow s).2 (Or.inr ⟨hc, h3⟩)) j st h2).1

/-! ### what was verified when it was frozen -/

theorem solveGroup_keys (o : Oracle R) (k : ℕ) (res : Dict String R) (g : Dict String Formula) (l : String)
    (h : l ∈ (solveGroup o k res g).2.keys) : l ∈ res.keys ∨ l ∈ g.keys := by
  induction g generalizing k res with
  | nil => exact Or.inl h
  | cons q g ih =>
    obtain ⟨a, φ⟩ := q
    simp only [solveGroup] at h
    rcases ih _ _ h with h | h
    · rw [Dict.mem_keys_set] at h
      rcases h with rfl | h
      · exact Or.inr (by simp [Dict.keys])
      · exact Or.inl h
    · exact Or.inr (by simp only [Dict.keys, List.map_cons, List.mem_cons]; exact Or.inr h)

/-- If the answers have an entry with a label of later groups only, no query of the earlier groups was answered "sat". -/
theorem reached_group (B : Backend R) (o : Oracle R) (l : String) (rest : List (Dict String Formula)) :
    ∀ (gs : List (Dict String Formula)) (k : ℕ) (res : Dict String R), l ∉ res.keys → (∀ g ∈ gs, l ∉ g.keys) →
      (gs.flatten.map Prod.fst).Nodup → (∀ a ∈ gs.flatten.map Prod.fst, a ∉ res.keys) →
      l ∈ (solveGroups B o k res (gs ++ rest)).2.keys → ∀ g ∈ gs, ∀ q ∈ g, ∃ j, B.isSat (o j q.2) = false := by
  intro gs
  induction gs with
  | nil => intro k res _ _ _ _ _ g hg; cases hg
  | cons g gs ih =>
    intro k res hl hgs hnd hdis hmem
    simp only [List.flatten_cons, List.map_append] at hnd hdis
    rw [List.nodup_append] at hnd
    have hr := solveGroup_nodup o k res g hnd.1 (fun a ha => hdis a (List.mem_append.2 (Or.inl ha)))
    have hlr : l ∉ (solveGroup o k res g).2.keys := fun h => by
      rcases solveGroup_keys o k res g l h with h | h
      · exact hl h
      · exact hgs g (by simp) h
    simp only [List.cons_append, solveGroups] at hmem
    split at hmem
    · exact absurd hmem hlr
    rename_i hsat
    have hno : ∀ r ∈ (solveGroup o k res g).2, B.isSat r.2 = false := by
      intro r hr'
      by_contra h
      apply hsat
      rw [List.any_eq_true]
      exact ⟨r.2, List.mem_map_of_mem hr', by simpa using h⟩
    intro g' hg' q hq
    rcases List.mem_cons.1 hg' with rfl | hg'
    · obtain ⟨i, hi, rfl⟩ := List.getElem_of_mem hq
      refine ⟨k + i, hno (g'[i].1, o (k + i) g'[i].2) ?_⟩
      rw [hr]
      refine List.mem_append.2 (Or.inr ?_)
      rw [List.mem_mapIdx]
      exact ⟨i, hi, rfl⟩
    · refine ih _ _ hlr (fun g hg => hgs g (by simp [hg])) hnd.2.1 (fun a ha h => ?_) hmem g' hg' q hq
      rcases solveGroup_keys o k res g a h with h | h
      · exact hdis a (List.mem_append.2 (Or.inr ha)) h
      · exact hnd.2.2 a h a ha rfl

/-- The keys of the counterexamples are those of the answers. -/
theorem verify_keys {B : Backend R} {n noise} {o : Oracle R} {groups} {r : VerifyOut} (h : verify B n noise o groups = .ok r) :
    r.cex.keys = (solveGroups B o 0 [] groups).2.keys := by
  unfold verify at h
  have hk : (Dict.keys (((solveGroups B o 0 [] groups).2).map (fun p => (p.1, ([] : List (List ℚ)))))) = (solveGroups B o 0 [] groups).2.keys := by
    simp [Dict.keys, List.map_map, Function.comp_def]
  simp only at h
  split at h
  · cases h; exact hk
  · obtain ⟨ces, h1, h2⟩ := except_bind_ok h
    cases h2
    rw [fillCex_keys B n noise _ _ _ (fun l hl => by rw [hk]; exact hl) h1, hk]

/-- A pass that goes on, in the double loop: what was asked and answered, and that the answers are kept in the state. -/
theorem double_pass {st st'} (hc : c.cert = .STABLESAFE ∨ c.cert = .RAR)
    (hb : loopBody c.loop (freezeComponents w c controlled opt) st = .ok (false, st')) :
    ∃ groups i o, queriesDouble (c.setup st'.net.1.1.1 st'.net.1.1.2 (w.dynamics st'.ctrl)) st'.net.1.2 = .ok groups ∧
      verify w.backend c.nVars (w.noise i) (w.oracle i) groups = .ok o ∧ o.found = false ∧ st'.cex = o.cex := by
  obtain ⟨n, kk, V, Vdot, found, cex, traj, st2, h1, h2, h3, h4, rfl, h5⟩ := loopBody_inv hb
  cases found with
  | true =>
    simp only [if_true] at h5
    rcases processCertificate_inv h5 with ⟨h, -⟩ | ⟨h, -⟩
    · cases h
    · have h : c.cert = .RSWS := h
      rcases hc with hc | hc <;> rw [hc] at h <;> cases h
  | false =>
    simp only [Bool.false_eq_true, if_false] at h5
    split at h5
    · simp at h5
    split at h5
    · simp at h5
    have h6 := h5.2
    have hdbl : c.loop.double = true := by
      rcases hc with hc | hc <;> simp [LoopCfg.double, SynthCfg.loop, hc]
    unfold processCex at h6
    rw [hdbl] at h6
    simp only [if_true] at h6
    split at h6
    · cases h6
    cases h6
    obtain ⟨d, hd, hv⟩ := except_bind_ok h3
    obtain ⟨g, hg, hv⟩ := except_bind_ok hv
    obtain ⟨⟨of, oc⟩, ho, hv⟩ := except_bind_ok hv
    cases hv
    obtain ⟨tt, ht1, ht2⟩ := except_bind_ok h2
    cases ht2
    refine ⟨g, st.iters, ⟨false, _⟩, ?_, ho, rfl, rfl⟩
    simp only [queriesDouble, SynthCfg.setup, LoopState.tick, LoopState.after, bind, Except.bind, hd, ht1]
    exact hg

/-- **C69 (RAR: frozen means verified).** If the solver always answers and its answers can be trusted, then in every state in which the reach
function is frozen, all its conditions hold: no query of a reach-while-avoid verification of the current network has a solution. -/
theorem C69_rar_frozen_verified (c : SynthCfg) (hc : c.cert = .RAR) (hlib : c.lib = .z3 ∨ c.lib = .dreal) (hsets : WFDomains c.nVars c.domains)
    (w : World R K ((Net × ℚ) × Net)) (hw : SoundWorld c w) (hans : AlwaysAnswers w) (f : List Term) (hdyn : ∀ k, w.dynamics k = f)
    (controlled : Bool) (opt) (net ctrl S) (k st)
    (hs : Steps c.loop (freezeComponents w c controlled opt) (initState (freezeComponents w c controlled opt) (net, false) ctrl S) k st)
    (hf : frozenIn c controlled st = true) :
    ∃ groups, queriesCT (c.setup st.net.1.1.1 0 f).rwsHalf = .ok groups ∧ Accepted c.nVars groups := by
  obtain ⟨-, i, j, s, -, h1, h2, h3⟩ := (C69_frozen_iff w c controlled opt net ctrl S k st hs).1 hf
  have h3 : XG ∈ Dict.keys s.cex := by
    rcases h3 with ⟨h, -⟩ | ⟨-, h⟩
    · rw [hc] at h; cases h
    · exact h
  have hfs : frozenIn c controlled s = true := by
    unfold frozenIn freezeAfter
    by_cases hctl : controlled = false
    · rw [hctl, hc]; simp [freezeLabel, h3]
    · exact absurd ((C69_frozen_iff w c controlled opt net ctrl S k st hs).1 hf).1 hctl
  rw [(C69_frozen_unchanged w c controlled opt s hfs j st h2).2.1]
  cases h1 with
  | refl => simp [initState, Dict.keys] at h3
  | tail _ hb =>
    obtain ⟨groups, n, o, hq, hv, -, hcx⟩ := double_pass (Or.inr hc) hb
    rw [hcx, verify_keys hv] at h3
    rw [hdyn] at hq
    obtain ⟨g1, d, nf, T, B, Bdot, dom, goal, b1, b2, b3, -, -, -, hq1, -, -, -, hg, -, -, -⟩ := rar_split (s := c.setup _ _ f) hc hq
    have hrw : ∃ d V Vdot, rwsConstraints d V Vdot = .ok g1 := by
      obtain ⟨d, V, Vdot, -, -, h⟩ := queriesCT_inv hq1
      exact ⟨d, V, Vdot, h⟩
    obtain ⟨d', V, Vdot, hrw⟩ := hrw
    have hdist := rws_distinct hrw
    have hlab : ∀ g ∈ g1, XG ∉ g.keys := by
      unfold rwsConstraints at hrw
      simp only [bind, Except.bind] at hrw
      repeat' split at hrw
      all_goals first | (cases hrw; done) | skip
      simp only [pure, Except.pure, Except.ok.injEq] at hrw
      subst hrw
      intro g hg
      simp only [List.mem_cons, List.not_mem_nil, or_false] at hg
      rcases hg with rfl | rfl <;> simp [Dict.keys] <;> decide
    have hns := reached_group w.backend (w.oracle n) XG [[(XG, b1), (XNF, b2)], [(XF, b3)]] g1 0 [] (by simp [Dict.keys]) hlab
      (by simpa [DistinctLabels, queries] using hdist) (by simp [Dict.keys]) (by rw [← hg]; exact h3)
    have hq0 : queriesCT (c.setup _ 0 f).rwsHalf = .ok g1 := hq1
    refine ⟨g1, hq0, accepted_of_refuted hdist fun g hg' q hq' => ?_⟩
    obtain ⟨j', hj⟩ := hns g hg' q hq'
    obtain ⟨Q, P, hR, -, hP⟩ := hw.reliable
    refine (hR n j').sound _ ?_ (hans n j' _ hj)
    rcases hP with hP | ⟨-, hP, hsm, hcl, -⟩
    · exact (hP _).2
    · have hmem : g ∈ groups := by rw [hg]; exact List.mem_append.2 (Or.inl hg')
      exact hP _ (queriesDouble_below (s := c.setup _ _ f) (by have := hcl ctrl; rwa [hdyn] at this) hq g hmem q hq')
        (rar_confined (s := c.setup _ _ f) hlib hsets hsm hc hq g hmem q hq')

/-- **C69 (RAR: consequences).** In such a state, whatever becomes of the second function, within a time bound every trajectory from the
initial set reaches the goal, in the safe set until then. -/
theorem C69_rar_frozen_reaches (c : SynthCfg) (hc : c.cert = .RAR) (hlib : c.lib = .z3 ∨ c.lib = .dreal) (hsets : WFDomains c.nVars c.domains)
    (hreach : ReachSets c.nVars c.domains) (hbd : Bornology.IsBounded (region c.nVars c.domains XS))
    (w : World R K ((Net × ℚ) × Net)) (hw : SoundWorld c w) (hans : AlwaysAnswers w) (f : List Term) (hdyn : ∀ k, w.dynamics k = f)
    (controlled : Bool) (opt) (net ctrl S) (k st)
    (hs : Steps c.loop (freezeComponents w c controlled opt) (initState (freezeComponents w c controlled opt) (net, false) ctrl S) k st)
    (hf : frozenIn c controlled st = true) (hsize : st.net.1.1.1.inputSize = c.nVars) (hsm : smoothActs st.net.1.1.1) :
    ∃ τ : ℝ, ∀ (T : ℝ) (ξ : ℝ → Pt c.nVars), Trajectory (field c.nVars f) T ξ → τ ≤ T → ξ 0 ∈ region c.nVars c.domains XI →
      (∃ t ∈ Icc 0 τ, ξ t ∈ region c.nVars c.domains XG) ∧
      ∀ t ∈ Icc 0 T, ξ t ∈ region c.nVars c.domains XS ∨ ∃ r ∈ Icc 0 t, ξ r ∈ region c.nVars c.domains XG := by
  obtain ⟨g, hq, ha⟩ := C69_rar_frozen_verified c hc hlib hsets w hw hans f hdyn controlled opt net ctrl S k st hs hf
  exact C12_rws_reaches_goal (c.setup st.net.1.1.1 0 f).rwsHalf ⟨hlib, hsets, hsize, hsm⟩ hreach (Or.inl rfl) g hq ha hbd

/-! ### a run with freezing is a run of the double loop -/

/-- The state without the flag. -/
def unflag {N P E : Type} (st : LoopState (N × Bool) K P E) : LoopState N K P E :=
  ⟨st.net.1, st.ctrl, st.S, st.Sdot, st.V, st.Vdot, st.found, st.timedOut, st.cex, st.traj, st.iters⟩

theorem steps_det {N P E : Type} {cfg : LoopCfg} {C : Components N K P E} {a b b' : LoopState N K P E} {i : ℕ} (h : Steps cfg C a i b)
    (h' : Steps cfg C a i b') : b = b' := by
  induction h generalizing b' with
  | refl => cases h'; rfl
  | tail _ hb ih =>
    cases h' with
    | tail h1 hb' =>
      cases ih h1
      rw [hb] at hb'
      simpa using hb'

theorem unflag_processCex {learn} {b : Bool} {s : LoopState (((Net × ℚ) × Net) × Bool) K (List ℚ) (Term × Term)} :
    processCex b (doubleComponents w c learn) (unflag s) = (processCex b (freezeComponents w c controlled opt) s).map unflag := by
  unfold processCex
  simp only [unflag]
  cases (if b = true then Except.ok s.cex else mergeTraj s.S s.cex s.traj) with
  | error e => rfl
  | ok cex =>
    simp only
    have : (doubleComponents w c learn).dyn = (freezeComponents w c controlled opt).dyn := rfl
    rw [this]
    cases addCes ((freezeComponents w c controlled opt).dyn s.ctrl) cex s.S s.Sdot <;> rfl

theorem unflag_pass {learn} {s : LoopState (((Net × ℚ) × Net) × Bool) K (List ℚ) (Term × Term)}
    (hl : learn (unflag s) = (freezeLearn c.cert controlled opt s).map (fun r => (r.1.1, r.2))) :
    loopBody c.loop (doubleComponents w c learn) (unflag s) =
      (loopBody c.loop (freezeComponents w c controlled opt) s).map (Prod.map id unflag) := by
  unfold loopBody
  have e1 : (doubleComponents w c learn).learn (unflag s) = (freezeLearn c.cert controlled opt s).map (fun r => (r.1.1, r.2)) := hl
  have e2 : (freezeComponents w c controlled opt).learn s = freezeLearn c.cert controlled opt s := rfl
  simp only [e1, e2, Bind.bind, Except.bind]
  cases freezeLearn c.cert controlled opt s with
  | error e => rfl
  | ok r =>
    obtain ⟨n, k⟩ := r
    simp only [Except.map]
    have e3 : (doubleComponents w c learn).translate n.1 k = (freezeComponents w c controlled opt).translate n k := rfl
    simp only [e3]
    cases (freezeComponents w c controlled opt).translate n k with
    | error e => rfl
    | ok v =>
      obtain ⟨V, Vdot⟩ := v
      have e4 : (doubleComponents w c learn).verify (unflag s).iters n.1 V Vdot = (freezeComponents w c controlled opt).verify s.iters n V Vdot := rfl
      simp only [e4]
      cases (freezeComponents w c controlled opt).verify s.iters n V Vdot with
      | error e => rfl
      | ok fc =>
        obtain ⟨found, cex⟩ := fc
        have e5 : (doubleComponents w c learn).consolidate (unflag s).iters n.1 k cex = (freezeComponents w c controlled opt).consolidate s.iters n k cex := rfl
        simp only [e5]
        cases (freezeComponents w c controlled opt).consolidate s.iters n k cex with
        | error e => rfl
        | ok traj =>
          have e6 : (unflag s).after n.1 k V Vdot found cex traj = unflag (s.after n k V Vdot found cex traj) := rfl
          simp only [e6]
          have e7 : loopDecide c.loop (doubleComponents w c learn) V Vdot (unflag (s.after n k V Vdot found cex traj)) =
              (loopDecide c.loop (freezeComponents w c controlled opt) V Vdot (s.after n k V Vdot found cex traj)).map (Prod.map id unflag) := by
            generalize s.after n k V Vdot found cex traj = t
            unfold loopDecide
            have a1 : (unflag t).found = t.found := rfl
            have a2 : (unflag t).timedOut = t.timedOut := rfl
            have a3 : (unflag t).iters = t.iters := rfl
            rw [a1, a2, a3]
            by_cases h1 : t.found = true
            · rw [if_pos h1, if_pos h1]
              unfold processCertificate
              have a4 : (doubleComponents w c learn).estimateBeta (unflag t).net = (freezeComponents w c controlled opt).estimateBeta t.net := rfl
              have a5 : (doubleComponents w c learn).betaSearch (unflag t).iters V Vdot = (freezeComponents w c controlled opt).betaSearch t.iters V Vdot := rfl
              rw [a4, a5]
              cases (if c.loop.cert = .LYAPUNOV ∨ c.loop.cert = .ROA then (freezeComponents w c controlled opt).estimateBeta t.net else .ok ()) with
              | error e => rfl
              | ok u =>
                simp only
                split
                · cases (freezeComponents w c controlled opt).betaSearch t.iters V Vdot with
                  | error e => rfl
                  | ok b => cases b <;> rfl
                · rfl
            · rw [if_neg h1, if_neg h1]
              by_cases h2 : t.timedOut = true
              · rw [if_pos h2, if_pos h2]; rfl
              · rw [if_neg h2, if_neg h2]
                by_cases h3 : c.loop.maxIters = t.iters
                · rw [if_pos h3, if_pos h3]; rfl
                · rw [if_neg h3, if_neg h3, unflag_processCex (controlled := controlled) (opt := opt)]
                  cases processCex c.loop.double (freezeComponents w c controlled opt) t <;> rfl
          rw [e7]
          cases loopDecide c.loop (freezeComponents w c controlled opt) V Vdot (s.after n k V Vdot found cex traj) <;> rfl

/-- **C69 (freezing keeps the guarantees).** Every run with freezing is a run of the double loop with some learner that returns only what
training with freezing returns; so everything proved of all runs of the double loop (C27, C28, C46) holds for it. -/
theorem C69_freezing_run (w : World R K ((Net × ℚ) × Net)) (c : SynthCfg) (controlled : Bool) (opt) (net ctrl S out)
    (h : Solves c.loop (freezeComponents w c controlled opt) (net, false) ctrl S out) :
    ∃ learn, (∀ st n k, learn st = .ok (n, k) → ∃ st' b, freezeLearn c.cert controlled opt st' = .ok ((n, b), k)) ∧
      Solves c.loop (doubleComponents w c learn) net ctrl S (unflag out) := by
  classical
  obtain ⟨k, st, hk, hb⟩ := h
  let s0 := initState (freezeComponents w c controlled opt) (net, false) ctrl S
  let learn : LoopState ((Net × ℚ) × Net) K (List ℚ) (Term × Term) → Except Err (((Net × ℚ) × Net) × K) := fun t =>
    if h : ∃ s, (∃ k, Steps c.loop (freezeComponents w c controlled opt) s0 k s) ∧ unflag s = t then
      (freezeLearn c.cert controlled opt h.choose).map (fun r => (r.1.1, r.2)) else .error .runtimeError
  have hlearn : ∀ s k, Steps c.loop (freezeComponents w c controlled opt) s0 k s →
      learn (unflag s) = (freezeLearn c.cert controlled opt s).map (fun r => (r.1.1, r.2)) := by
    intro s k hs
    have hex : ∃ s', (∃ k, Steps c.loop (freezeComponents w c controlled opt) s0 k s') ∧ unflag s' = unflag s := ⟨s, ⟨k, hs⟩, rfl⟩
    have h1 := hex.choose_spec
    have h2 : hex.choose = s := by
      obtain ⟨⟨k', h3⟩, h4⟩ := h1
      have i1 := (steps_iters h3).1
      have i2 := (steps_iters hs).1
      have i3 : hex.choose.iters = s.iters := by
        have h5 : (unflag hex.choose).iters = (unflag s).iters := by rw [h4]
        exact h5
      have : k' = k := by omega
      subst this
      exact steps_det h3 hs
    simp only [learn, dif_pos hex, h2]
  refine ⟨learn, ?_, k, unflag st, ?_, ?_⟩
  · intro t n k' ht
    simp only [learn] at ht
    split at ht
    · rename_i hex
      cases hfl : freezeLearn c.cert controlled opt hex.choose with
      | error e => rw [hfl] at ht; cases ht
      | ok r =>
        rw [hfl] at ht
        cases ht
        exact ⟨_, r.1.2, hfl⟩
    · cases ht
  · have hgen : ∀ k s, Steps c.loop (freezeComponents w c controlled opt) s0 k s →
        Steps c.loop (doubleComponents w c learn) (unflag s0) k (unflag s) := by
      intro k s hs
      induction hs with
      | refl => exact .refl _
      | tail h1 hb' ih =>
        refine ih.tail ?_
        rw [unflag_pass (hlearn _ _ h1), hb']
        rfl
    exact hgen k st hk
  · rw [unflag_pass (hlearn _ _ hk), hb]
    rfl

/-! ### a function frozen too early -/

theorem steps_split {N P E : Type} {cfg : LoopCfg} {C : Components N K P E} {a b : LoopState N K P E} (i j : ℕ) (h : Steps cfg C a (i + j) b) :
    ∃ m, Steps cfg C a i m ∧ Steps cfg C m j b := by
  induction j generalizing b with
  | zero => exact ⟨b, h, .refl _⟩
  | succ j ih =>
    cases h with
    | tail h hb =>
      obtain ⟨m, h1, h2⟩ := ih h
      exact ⟨m, h1, h2.tail hb⟩

/-- A run that ends has passed through every state reachable from its start. -/
theorem solves_through {N P E : Type} {cfg : LoopCfg} {C : Components N K P E} {net ctrl S out} {i : ℕ} {s : LoopState N K P E}
    (h : Solves cfg C net ctrl S out) (hs : Steps cfg C (initState C net ctrl S) i s) :
    ∃ j st, Steps cfg C s j st ∧ loopBody cfg C st = .ok (true, out) := by
  obtain ⟨k, st, hk, hb⟩ := h
  rcases le_or_gt i k with hik | hik
  · obtain ⟨j, rfl⟩ := Nat.exists_eq_add_of_le hik
    obtain ⟨m, h1, h2⟩ := steps_split i j hk
    cases steps_det hs h1
    exact ⟨j, st, h2, hb⟩
  · obtain ⟨j, rfl⟩ := Nat.exists_eq_add_of_lt hik
    obtain ⟨m, h1, h2⟩ := steps_split (k + 1) j (by rw [show k + 1 + j = k + j + 1 by omega]; exact hs)
    cases h1 with
    | tail h1 hb' =>
      cases steps_det h1 hk
      rw [hb] at hb'
      simp at hb'

/-- Once frozen, the first function of the result is the frozen one. -/
theorem frozen_result {net ctrl S out} {i s}
    (h : Solves c.loop (freezeComponents w c controlled opt) (net, false) ctrl S out)
    (hs : Steps c.loop (freezeComponents w c controlled opt) (initState (freezeComponents w c controlled opt) (net, false) ctrl S) i s)
    (hf : frozenIn c controlled s = true) : out.net.1.1.1 = s.net.1.1.1 := by
  obtain ⟨j, st, h1, h2⟩ := solves_through h hs
  exact (C69_frozen_unchanged w c controlled opt s hf j st h1).2.2 true out h2

/-- **C69 (RAR: frozen too early).** If the reach function is frozen although its conditions do not hold — which an undecided query is enough
for, see `C69_unknown_freezes` — the run cannot succeed any more, whatever the optimiser does and whatever the solver answers later. -/
theorem C69_rar_blocked (c : SynthCfg) (hc : c.cert = .RAR) (w : World Answer K ((Net × ℚ) × Net)) (hb : w.backend = smtBackend)
    (ho : ∀ i, RefutationSound (w.oracle i)) (f : List Term) (hdyn : ∀ k, w.dynamics k = f) (controlled : Bool) (opt) (net ctrl S) (i s)
    (hs : Steps c.loop (freezeComponents w c controlled opt) (initState (freezeComponents w c controlled opt) (net, false) ctrl S) i s)
    (hf : frozenIn c controlled s = true) (groups) (hq : queriesCT (c.setup s.net.1.1.1 0 f).rwsHalf = .ok groups)
    (hsat : ∃ g ∈ groups, ∃ q ∈ g, ∃ ρ : Env, q.2.holds ρ) :
    ∀ out, Solves c.loop (freezeComponents w c controlled opt) (net, false) ctrl S out → out.found = false := by
  intro out h
  by_contra hfound
  have hfound : (unflag out).found = true := by
    have : out.found = true := by simpa using hfound
    exact this
  have hnet := frozen_result h hs hf
  obtain ⟨learn, -, h'⟩ := C69_freezing_run w c controlled opt net ctrl S out h
  obtain ⟨g, n, cex, hq', hv⟩ := solve_queries_double w c learn net ctrl S (unflag out) h' hfound
  rw [hdyn] at hq'
  have hd := rar_distinct (s := c.setup _ _ f) hc hq'
  rw [hb] at hv
  have hr := accepted_refutes hd (.z3 _ _ cex (ho n) hv)
  obtain ⟨g1, d, nf, T, B, Bdot, dom, goal, b1, b2, b3, -, -, -, hq1, -, -, -, hg, -, -, -⟩ := rar_split (s := c.setup _ _ f) hc hq'
  have hq1 : queriesCT (c.setup s.net.1.1.1 0 f).rwsHalf = .ok g1 := by
    rw [← hnet]; exact hq1
  rw [hq] at hq1
  cases hq1
  obtain ⟨g', hg', q, hq2, ρ, hρ⟩ := hsat
  exact hr g' (by rw [hg]; exact List.mem_append.2 (Or.inl hg')) q hq2 ρ hρ


/-- A pass in which the verifier succeeds ends the run (for the certificates without a further check). -/
theorem last_pass {N K P E : Type} (c : LoopCfg) (C : Components N K P E) (st : LoopState N K P E) (n : N) (k : K) (V Vdot : E) (cex traj)
    (hle : C.learn st = .ok (n, k)) (htr : C.translate n k = .ok (V, Vdot)) (hve : C.verify st.iters n V Vdot = .ok (true, cex))
    (hco : C.consolidate st.iters n k cex = .ok traj) (hct : c.cert = .STABLESAFE ∨ c.cert = .RAR) :
    loopBody c C st = .ok (true, (st.after n k V Vdot true cex traj).tick) := by
  have hpc : processCertificate c C V Vdot (st.after n k V Vdot true cex traj) = .ok (true, st.after n k V Vdot true cex traj) := by
    unfold processCertificate
    rcases hct with h | h <;> simp [h]
  have hde : loopDecide c C V Vdot (st.after n k V Vdot true cex traj) = .ok (true, st.after n k V Vdot true cex traj) := by
    unfold loopDecide
    rw [if_pos (show (st.after n k V Vdot true cex traj).found = true from rfl)]
    exact hpc
  simp only [loopBody, Bind.bind, Except.bind, hle, htr, hve, hco, hde, pure, Except.pure]

/-- A pass of the double loop in which the verifier reports failure and no counterexample rows. -/
theorem failed_pass {N K P E : Type} (c : LoopCfg) (C : Components N K P E) (st : LoopState N K P E) (n : N) (k : K) (V Vdot : E) (cex traj S' Sdot')
    (hle : C.learn st = .ok (n, k)) (htr : C.translate n k = .ok (V, Vdot)) (hve : C.verify st.iters n V Vdot = .ok (false, cex))
    (hco : C.consolidate st.iters n k cex = .ok traj) (hct : c.cert = .STABLESAFE ∨ c.cert = .RAR) (hto : st.timedOut = false)
    (hmax : c.maxIters ≠ st.iters) (hadd : addCes (C.dyn k) cex st.S st.Sdot = .ok (S', Sdot')) :
    loopBody c C st = .ok (false, { (st.after n k V Vdot false cex traj).tick with S := S', Sdot := Sdot' }) := by
  have hdbl : c.double = true := by rcases hct with h | h <;> simp [LoopCfg.double, h]
  have hde : loopDecide c C V Vdot (st.after n k V Vdot false cex traj) = .ok (false, { st.after n k V Vdot false cex traj with S := S', Sdot := Sdot' }) := by
    unfold loopDecide
    rw [if_neg (by simp [LoopState.after]), if_neg (by simp [LoopState.after, hto]), if_neg (by simpa [LoopState.after] using hmax)]
    unfold processCex
    rw [hdbl]
    simp only [if_true, LoopState.after, hadd]
  simp only [loopBody, Bind.bind, Except.bind, hle, htr, hve, hco, hde, pure, Except.pure]
  rfl

/-- The configuration of the RAR example of C16. -/
def exRarCfg : SynthCfg := ⟨.z3, 1, .RAR, exRAR.domains, exRAR.llo, exRAR.rounding, false, 10⟩

/-- A wrong reach function: `x² + 1`. -/
def exBadReach : Net := ⟨1, [⟨[[1]], some [0]⟩, ⟨[[1]], some [1]⟩], [.square]⟩

/-- A solver that is sound, decides nothing in the first pass and is ideal from then on. -/
noncomputable def exSlowWorld (N : Type) (f : List Term) : World Answer Unit N :=
  { idealWorld N f with oracle := fun i _ φ => if i = 0 then .unknown else idealSolver φ }

/-- An optimiser that proposes the wrong reach function first and the correct pair afterwards. -/
noncomputable def exOpt {E : Type} (st : LoopState (((Net × ℚ) × Net) × Bool) Unit (List ℚ) E) : Except Err (((Net × ℚ) × Net) × Unit) :=
  .ok (if st.iters = 0 then ((exBadReach, 0), exRARNet) else ((exRAR.net, 0), exRARNet), ())

/-- **C69 is false if "verified" is dropped: an undecided query freezes a wrong function.** The solver is sound, but answers "unknown" in the
first pass. The wrong reach function proposed there is frozen, and the run does not succeed, although the optimiser proposes a correct pair
in the second pass: without freezing (`controlled`), the same run succeeds there. -/
theorem C69_unknown_freezes :
    let w := exSlowWorld ((Net × ℚ) × Net) exRAR.f
    SoundWorld exRarCfg w ∧ RefutationSound (w.oracle 0) ∧
    (∃ s, Steps exRarCfg.loop (freezeComponents w exRarCfg false exOpt) (initState (freezeComponents w exRarCfg false exOpt) (((exRAR.net, 0), exRARNet), false) () []) 1 s ∧
      frozenIn exRarCfg false s = true ∧ s.net.1.1.1 = exBadReach ∧
      ∃ groups, queriesCT (exRarCfg.setup exBadReach 0 exRAR.f).rwsHalf = .ok groups ∧ ∃ g ∈ groups, ∃ q ∈ g, ∃ ρ : Env, q.2.holds ρ) ∧
    (∀ out, Solves exRarCfg.loop (freezeComponents w exRarCfg false exOpt) (((exRAR.net, 0), exRARNet), false) () [] out → out.found = false) ∧
    ∃ out, Solves exRarCfg.loop (freezeComponents w exRarCfg true exOpt) (((exRAR.net, 0), exRARNet), false) () [] out ∧ out.found = true := by
  intro w
  have hsound : ∀ i, RefutationSound (w.oracle i) := by
    intro i k φ h ρ
    have h : (if i = 0 then Answer.unknown else idealSolver φ) = .unsat := h
    split at h
    · cases h
    · exact idealSolver_sound φ (by rw [h]; rfl) ρ
  have hstay : ∀ i β b φ, w.stayOracle i β b φ = .unsat → ∀ ρ : Env, ¬ φ.holds ρ := by
    intro i β b φ h
    exact idealSolver_sound φ (by rw [show idealSolver φ = .unsat from h]; rfl)
  have hfirst : ∀ ctl, ∃ s, loopBody exRarCfg.loop (freezeComponents w exRarCfg ctl exOpt) (initState (freezeComponents w exRarCfg ctl exOpt) (((exRAR.net, 0), exRARNet), false) () []) = .ok (false, s) ∧
      s.net = (((exBadReach, 0), exRARNet), false) ∧ XG ∈ s.cex.keys ∧ s.iters = 1 := by
    intro ctl
    refine ⟨_, failed_pass exRarCfg.loop (freezeComponents w exRarCfg ctl exOpt) _ (((exBadReach, 0), exRARNet), false) () (_, _) (_, _)
      [(XI, []), (XU, []), (XD, []), (XG, []), (XNF, []), (XF, [])] [] [] [] ?_ rfl rfl rfl (Or.inr rfl) rfl (by show (10 : ℤ) ≠ 0; decide) rfl, rfl, ?_, rfl⟩
    · cases ctl <;> rfl
    · show XG ∈ Dict.keys [(XI, ([] : List (List ℚ))), (XU, []), (XD, []), (XG, []), (XNF, []), (XF, [])]
      decide
  have hsat : ∃ groups, queriesCT (exRarCfg.setup exBadReach 0 exRAR.f).rwsHalf = .ok groups ∧ ∃ g ∈ groups, ∃ q ∈ g, ∃ ρ : Env, q.2.holds ρ := by
    have h1 : roundBy 3 1 = 1 := by decide +kernel
    have h0 : roundBy 3 0 = 0 := by decide +kernel
    refine ⟨[[(XI, _), (XU, _)], [(XD, _)]], rfl, _, List.mem_cons_self, _, List.mem_cons_self, fun _ => 3/5, ?_⟩
    simp [Formula.holds, Formula.conj, Term.eval, Term.sum, leZero, geZero, gtZero, factors, vars, h1, h0,
        exRAR, exReach, exRarCfg, SynthCfg.setup, Setup.rwsHalf, exBadReach, eyeJac, postVal, postGrad, gradTerms, hiddenBias, diagJac]
    norm_num
  obtain ⟨s, hb, hn, hk, hi⟩ := hfirst false
  have hst : Steps exRarCfg.loop (freezeComponents w exRarCfg false exOpt) (initState (freezeComponents w exRarCfg false exOpt) (((exRAR.net, 0), exRARNet), false) () []) 1 s := .tail (.refl _) hb
  have hfr : frozenIn exRarCfg false s = true := by
    unfold frozenIn freezeAfter
    simp [exRarCfg, freezeLabel, hk]
  have hbad : s.net.1.1.1 = exBadReach := by rw [hn]
  obtain ⟨groups, hq, hx⟩ := hsat
  refine ⟨.smt w rfl hsound hstay, hsound 0, ⟨s, hst, hfr, hbad, groups, hq, hx⟩,
    C69_rar_blocked exRarCfg rfl w rfl hsound exRAR.f (fun _ => rfl) false exOpt _ () [] 1 s hst hfr groups (by rw [hbad]; exact hq) hx, ?_⟩
  obtain ⟨s, hb, hn, hk, hi⟩ := hfirst true
  obtain ⟨groups, hq, ha⟩ := exRAR_accepted
  have hd := rar_distinct (s := exRAR) rfl hq
  obtain ⟨cex, hv⟩ := ideal_verifies 1 groups hd (accepted_refutes hd ha)
  unfold queriesDouble at hq
  obtain ⟨d, hdd, hq⟩ := except_bind_ok hq
  obtain ⟨⟨⟨V, Vdot⟩, ⟨B, Bdot⟩⟩, ht, hq⟩ := except_bind_ok hq
  refine ⟨_, ⟨1, s, .tail (.refl _) hb, last_pass exRarCfg.loop (freezeComponents w exRarCfg true exOpt) s (((exRAR.net, 0), exRARNet), false) () (V, B) (Vdot, Bdot) cex [] ?_ ?_ ?_ rfl (Or.inr rfl)⟩, rfl⟩
  · show freezeLearn _ _ exOpt s = _
    unfold freezeLearn exOpt freezeAfter
    simp [hi, hn, Bind.bind, Except.bind, pure, Except.pure]
  · show (do
      let ((V, Vdot), (B, Bdot)) ← translateCTDouble exRarCfg.lib exRarCfg.rounding none exRAR.net exRARNet (vars exRarCfg.nVars) exRAR.f
      return ((V, B), (Vdot, Bdot)) : Except Err _) = _
    have ht : translateCTDouble exRarCfg.lib exRarCfg.rounding none exRAR.net exRARNet (vars exRarCfg.nVars) exRAR.f = .ok ((V, Vdot), (B, Bdot)) := ht
    rw [ht]; rfl
  · rw [hi]
    have hdd : initialiseDomains exRarCfg.lib exRarCfg.nVars exRarCfg.cert exRarCfg.domains = .ok d := hdd
    have hq : rarConstraints d V Vdot B Bdot = .ok groups := hq
    have hv : verify w.backend exRarCfg.nVars (w.noise 1) (w.oracle 1) groups = .ok ⟨true, cex⟩ := by
      have : w.oracle 1 = fun _ => idealSolver := rfl
      rw [this]; exact hv
    simp only [freezeComponents, doubleComponents, Bind.bind, Except.bind, hdd]
    have hct : exRarCfg.cert = .RAR := rfl
    simp only [hct, hq, hv]
    rfl

/-! ### StableSafe: the level of a frozen function grows with the data -/

/-- `x' = -x + x³` on `[-4, 4]`, initial set `[-0.97, 0.97]`, unsafe set `[2, 3]`. -/
def exGrowCfg : SynthCfg := ⟨.z3, 1, .STABLESAFE,
  [(XD, .rectangle [-4] [4] none), (XI, .rectangle [-97/100] [97/100] none), (XU, .rectangle [2] [3] none)], true, 3, false, 10⟩

def exGrowF : List Term := [.add (.neg (.var 0)) (.pow (.var 0) 3)]

/-- The Lyapunov function `x²`. -/
def exGrowV : Net := ⟨1, [⟨[[1]], none⟩, ⟨[[1]], none⟩], [.square]⟩

/-- The barrier functions `x² - c`. -/
def exGrowB (c : ℚ) : Net := ⟨1, [⟨[[1]], some [0]⟩, ⟨[[1]], some [-c]⟩], [.square]⟩

theorem exGrowV_forward (x : ℝ) : exGrowV.forward [x] = .ok (x ^ 2) := by
  simp [exGrowV, Net.forward, hiddenForward, Layer.apply, dotR, Act.forward, at?, bind, Except.bind]

/-- The four queries of the pair `x²` (level `β`), `x² - c`. -/
theorem exGrow_queries (β : ℚ) (c : ℚ) (hc : roundBy 3 (-c) = -c) :
    ∃ q0 q1 q2 q3, queriesDouble (exGrowCfg.setup exGrowV β exGrowF) (exGrowB c) = .ok [[(XD, q0)], [(XI, q1), (XU, q2)], [(XD, q3)]] ∧
      (∀ ρ : Env, q0.holds ρ ↔ ((-97/100 ≤ ρ 0 ∧ ρ 0 ≤ 97/100) ∧ ¬ (ρ 0) ^ 2 ≤ (β : ℝ) * (11/10)) ∨
        (((ρ 0) ^ 2 ≤ (β : ℝ) * (11/10) ∧ ¬ (ρ 0) ^ 2 ≤ 1/10000) ∧ 0 ≤ 2 * ρ 0 * (-ρ 0 + (ρ 0) ^ 3))) ∧
      (∀ ρ : Env, q1.holds ρ ↔ (0 ≤ (ρ 0) ^ 2 - (c : ℝ) ∧ -97/100 ≤ ρ 0 ∧ ρ 0 ≤ 97/100) ∧ -4 ≤ ρ 0 ∧ ρ 0 ≤ 4) ∧
      (∀ ρ : Env, q2.holds ρ ↔ ((ρ 0) ^ 2 - (c : ℝ) ≤ 0 ∧ 2 ≤ ρ 0 ∧ ρ 0 ≤ 3) ∧ -4 ≤ ρ 0 ∧ ρ 0 ≤ 4) ∧
      (∀ ρ : Env, q3.holds ρ ↔ ((ρ 0) ^ 2 - (c : ℝ) = 0 ∧ 0 ≤ 2 * ρ 0 * (-ρ 0 + (ρ 0) ^ 3)) ∧ -4 ≤ ρ 0 ∧ ρ 0 ≤ 4) := by
  have h1 : roundBy 3 1 = 1 := by decide +kernel
  have h0 : roundBy 3 0 = 0 := by decide +kernel
  refine ⟨_, _, _, _, rfl, ?_, ?_, ?_, ?_⟩
  all_goals
    intro ρ
    simp [Formula.holds, Formula.conj, Term.eval, Term.sum, leZero, geZero, gtZero, factors, vars, h1, h0, hc,
          exGrowCfg, exGrowV, exGrowB, exGrowF, SynthCfg.setup, eyeJac, postVal, postGrad, gradTerms, hiddenBias, diagJac]
    try norm_num
    try norm_cast
  all_goals
    intros
    rw [Rat.cast_neg, sub_eq_add_neg]

theorem solveGroup_keys_nodup (o : Oracle R) (g : Dict String Formula) : ∀ (k : ℕ) (res : Dict String R), res.keys.Nodup → (solveGroup o k res g).2.keys.Nodup := by
  induction g with
  | nil => intro k res h; exact h
  | cons q g ih =>
    intro k res h
    refine ih _ _ ?_
    rw [Dict.keys_set]
    split
    · exact h
    · rename_i hn
      exact List.Nodup.append h (by simp) (by simpa using hn)

theorem solveGroups_keys_nodup (B : Backend R) (o : Oracle R) (gs : List (Dict String Formula)) :
    ∀ (k : ℕ) (res : Dict String R), res.keys.Nodup → (solveGroups B o k res gs).2.keys.Nodup := by
  induction gs with
  | nil => intro k res h; exact h
  | cons g gs ih =>
    intro k res h
    simp only [solveGroups]
    split
    · exact solveGroup_keys_nodup o g k res h
    · exact ih _ _ (solveGroup_keys_nodup o g k res h)

theorem freeze_cex_nodup : ∀ i n V Vdot f cex, (freezeComponents w c controlled opt).verify i n V Vdot = .ok (f, cex) → cex.keys.Nodup := by
  intro i n V Vdot f cex h
  obtain ⟨d, hd, hv⟩ := except_bind_ok h
  obtain ⟨g, hg, hv⟩ := except_bind_ok hv
  obtain ⟨⟨of, oc⟩, ho, hv⟩ := except_bind_ok hv
  cases hv
  rw [verify_keys ho]
  exact solveGroups_keys_nodup _ _ _ _ _ (by simp [Dict.keys])

/-- The level of every trained Lyapunov function is at least its value at every sample of the initial set: `compute_maximum` (learner.py:235-251)
at the end of training (certificate.py:1420-1422). -/
def Spec.LevelCovers {E : Type} (learn : LoopState (((Net × ℚ) × Net) × Bool) K (List ℚ) E → Except Err ((((Net × ℚ) × Net) × Bool) × K)) : Prop :=
  ∀ st n k, learn st = .ok (n, k) → ∀ rows, Dict.get? st.S XI = some rows → ∀ x ∈ rows, ∀ v,
    n.1.1.1.forward (x.map (fun q : ℚ => (q : ℝ))) = .ok v → v ≤ (n.1.1.2 : ℝ)

/-- **C69 (StableSafe: a verified function can block the run).** For `x' = -x + x³` the pair `x²` (with level `0.95²`) and `x² - 0.97` satisfies
all conditions, and the solver refutes all queries. But if `x²` is frozen and the sample `0.97` is added to the initial set — for instance as a
counterexample for a barrier function proposed together with `x²` — then the level rises to `0.97²`, ten percent more is above 1, where `x²` is not
decreasing, and no later pass can succeed: whatever the optimiser, whatever the solver (as long as it decides its queries, rightly). -/
theorem C69_stablesafe_blocked :
    (∃ groups, queriesDouble (exGrowCfg.setup exGrowV (361/400) exGrowF) (exGrowB (97/100)) = .ok groups ∧ ∀ g ∈ groups, ∀ q ∈ g, ∀ ρ : Env, ¬ q.2.holds ρ) ∧
    ∀ {K : Type} (w : World Answer K ((Net × ℚ) × Net)), w.backend = smtBackend → (∀ i, RefutationSound (w.oracle i)) → AlwaysAnswers w →
      (∀ k, w.dynamics k = exGrowF) → ∀ opt, LevelCovers (freezeLearn exGrowCfg.cert false opt) → ∀ net ctrl S i s,
      Steps exGrowCfg.loop (freezeComponents w exGrowCfg false opt) (initState (freezeComponents w exGrowCfg false opt) (net, false) ctrl S) i s →
      frozenIn exGrowCfg false s = true → s.net.1.1.1 = exGrowV → (∃ rows, Dict.get? s.S XI = some rows ∧ [97/100] ∈ rows) →
      ∀ out, Solves exGrowCfg.loop (freezeComponents w exGrowCfg false opt) (net, false) ctrl S out → out.found = false := by
  constructor
  · obtain ⟨q0, q1, q2, q3, h, h0, h1, h2, h3⟩ := exGrow_queries (361/400) (97/100) (by decide +kernel)
    refine ⟨_, h, ?_⟩
    intro g hg q hq ρ hρ
    simp only [List.mem_cons, List.not_mem_nil, or_false] at hg
    rcases hg with rfl | rfl | rfl <;> simp only [List.mem_cons, List.not_mem_nil, or_false] at hq
    · subst hq
      have := (h0 ρ).1 hρ
      norm_num at this
      rcases this with ⟨⟨a, b⟩, c⟩ | ⟨⟨a, b⟩, c⟩
      · nlinarith
      · have : ρ 0 * (-ρ 0 + ρ 0 ^ 3) = ρ 0 ^ 2 * (ρ 0 ^ 2 - 1) := by ring
        nlinarith [mul_pos (show (0 : ℝ) < ρ 0 ^ 2 by linarith) (show (0 : ℝ) < 1 - ρ 0 ^ 2 by linarith)]
    · rcases hq with rfl | rfl
      · have := (h1 ρ).1 hρ
        norm_num at this
        obtain ⟨⟨a, b, c⟩, d, e⟩ := this
        nlinarith
      · have := (h2 ρ).1 hρ
        norm_num at this
        obtain ⟨⟨a, b, c⟩, d, e⟩ := this
        nlinarith
    · subst hq
      have := (h3 ρ).1 hρ
      norm_num at this
      obtain ⟨⟨a, b⟩, d, e⟩ := this
      have : ρ 0 * (-ρ 0 + ρ 0 ^ 3) = ρ 0 ^ 2 * (ρ 0 ^ 2 - 1) := by ring
      have h : ρ 0 ^ 2 = 97/100 := by linarith
      rw [h] at this
      nlinarith
  · intro K w hb ho hans hdyn opt hlev net ctrl S i s hs hf hV ⟨rows, hrows, hx⟩ out h
    by_contra hfound
    have hfound : out.found = true := by simpa using hfound
    have hnet := (frozen_result h hs hf).trans hV
    obtain ⟨j, st, h1, h2⟩ := solves_through h hs
    obtain ⟨n, k, V, Vdot, found, cex, traj, st2, hl, ht, hv, -, hst2, h5⟩ := loopBody_inv h2
    have hon : out.net = n := by
      obtain ⟨k', h'⟩ := loopBody_net h2
      have h' : freezeLearn exGrowCfg.cert false opt st = .ok (out.net, k') := h'
      have hl : freezeLearn exGrowCfg.cert false opt st = .ok (n, k) := hl
      rw [hl] at h'
      cases h'
      rfl
    have hbeta : ((97/100 : ℝ)) ^ 2 ≤ (out.net.1.1.2 : ℝ) := by
      obtain ⟨new, hnew, hpre⟩ := (C29_data_prefix _ _ freeze_cex_nodup s st j h1 XI).1 rows hrows
      have := hlev st n k hl new hnew _ (hpre.subset hx) ((97/100 : ℝ) ^ 2) (by
        rw [← hon, hnet]
        simpa using exGrowV_forward (97/100))
      rw [hon]; exact this
    obtain ⟨learn, -, h'⟩ := C69_freezing_run w exGrowCfg false opt net ctrl S out h
    obtain ⟨g, m, cex', hq', hv'⟩ := solve_queries_double w exGrowCfg learn net ctrl S (unflag out) h' hfound
    rw [hdyn] at hq'
    have hq' : queriesDouble (exGrowCfg.setup out.net.1.1.1 out.net.1.1.2 exGrowF) out.net.1.2 = .ok g := hq'
    rw [hnet] at hq'
    obtain ⟨q0, q1, q2, q3, rfl, hroa, -⟩ := safeRoa_split (s := exGrowCfg.setup exGrowV out.net.1.1.2 exGrowF) rfl hq'
    rw [hb] at hv'
    obtain ⟨u0, -⟩ := verify_four smtBackend _ _ _ q0 q1 q2 q3 cex' (fun k φ _ hu => by rw [unsat_of_isUnsat hu]; rfl) hv'
    have hu := hans m 0 q0 (by rw [hb]; exact u0)
    rw [hb] at hu
    have hno := ho m 0 q0 (unsat_of_isUnsat hu)
    obtain ⟨q0', q1', q2', q3', hg', hiff, -⟩ := exGrow_queries out.net.1.1.2 (97/100) (by decide +kernel)
    obtain ⟨p0, p1, p2, p3, hp, hroa', -⟩ := safeRoa_split (s := exGrowCfg.setup exGrowV out.net.1.1.2 exGrowF) rfl hg'
    rw [hroa] at hroa'
    simp only [Except.ok.injEq, List.cons.injEq, Prod.mk.injEq, true_and, and_true] at hroa' hp
    obtain ⟨hp0, -⟩ := hp
    subst hp0
    subst hroa'
    refine hno (fun _ => 1) ((hiff _).2 (Or.inr ⟨⟨?_, by norm_num⟩, by norm_num⟩))
    norm_num at hbeta ⊢
    linarith

/-- A solver that decides every query rightly; its models are `x = 0.97`. -/
noncomputable def exDecider (φ : Formula) : Answer := by
  classical exact if ∃ ρ : Env, φ.holds ρ then .sat (fun _ => some (.rat (97/100))) else .unsat

noncomputable def exDecidedWorld : World Answer Unit ((Net × ℚ) × Net) :=
  { idealWorld _ exGrowF with oracle := fun _ _ => exDecider }

open Classical in
/-- An optimiser that always proposes `x²` and `x² - 0.94`, with the level of `compute_maximum`. -/
noncomputable def exGrowOpt {E : Type} (st : LoopState (((Net × ℚ) × Net) × Bool) Unit (List ℚ) E) : Except Err (((Net × ℚ) × Net) × Unit) :=
  if st.net.1.1.1 = exGrowV then
    .ok (((exGrowV, (((Dict.get? st.S XI).getD []).map (fun x => (x.headD 0) ^ 2)).foldr max 0), exGrowB (94/100)), ()) else .error .runtimeError

theorem le_foldr_max (l : List ℚ) (a : ℚ) (h : a ∈ l) : a ≤ l.foldr max 0 := by
  induction l with
  | nil => cases h
  | cons b l ih =>
    rcases List.mem_cons.1 h with rfl | h
    · exact le_max_left _ _
    · exact (ih h).trans (le_max_right _ _)

/-- Non-vacuity of `C69_stablesafe_blocked`: the state is reached after one pass from the sample 0.95. -/
theorem C69_stablesafe_blocked_reached :
    exDecidedWorld.backend = smtBackend ∧ (∀ i, RefutationSound (exDecidedWorld.oracle i)) ∧ AlwaysAnswers exDecidedWorld ∧
    (∀ k, exDecidedWorld.dynamics k = exGrowF) ∧ LevelCovers (freezeLearn (K := Unit) (E := Term × Term) exGrowCfg.cert false exGrowOpt) ∧
    ∃ s, Steps exGrowCfg.loop (freezeComponents exDecidedWorld exGrowCfg false exGrowOpt)
        (initState (freezeComponents exDecidedWorld exGrowCfg false exGrowOpt) (((exGrowV, 0), exGrowB (94/100)), false) () [(XD, []), (XI, [[19/20]]), (XU, [])]) 1 s ∧
      frozenIn exGrowCfg false s = true ∧ s.net.1.1.1 = exGrowV ∧ ∃ rows, Dict.get? s.S XI = some rows ∧ [97/100] ∈ rows := by
  refine ⟨rfl, ?_, ?_, fun _ => rfl, ?_, ?_⟩
  · intro i k φ h ρ hρ
    have h : exDecider φ = .unsat := h
    unfold exDecider at h
    rw [if_pos ⟨ρ, hρ⟩] at h
    cases h
  · refine smt_answers _ rfl fun i k φ h => ?_
    have h : exDecider φ = .unknown := h
    unfold exDecider at h
    split at h <;> cases h
  · intro st n k h rows hrows x hx v hv
    obtain ⟨h1, h2, m, h3, h4, -, h5⟩ := freezeLearn_inv h
    unfold exGrowOpt at h3
    split at h3
    swap
    · cases h3
    rename_i hV
    cases h3
    have hn : n.1.1.1 = exGrowV := by
      cases hfl : n.2 with
      | true => rw [h2 hfl, hV]
      | false => exact h5 hfl
    rw [hn] at hv
    rw [h4]
    have hle := le_foldr_max (((Dict.get? st.S XI).getD []).map (fun x => (x.headD 0) ^ 2)) ((x.headD 0) ^ 2)
      (List.mem_map.2 ⟨x, by rw [hrows]; exact hx, rfl⟩)
    have hle' : (((x.headD 0) ^ 2 : ℚ) : ℝ) ≤ (((((Dict.get? st.S XI).getD []).map (fun x => (x.headD 0) ^ 2)).foldr max 0 : ℚ) : ℝ) := by exact_mod_cast hle
    refine le_trans ?_ hle'
    cases x with
    | nil =>
      simp [exGrowV, Net.forward, hiddenForward, Layer.apply, dotR, Act.forward, at?, bind, Except.bind] at hv
      simp [← hv]
    | cons a l =>
      simp [exGrowV, Net.forward, hiddenForward, Layer.apply, dotR, Act.forward, at?, bind, Except.bind] at hv
      simp [← hv]
  · obtain ⟨q0, q1, q2, q3, h, h0, h1, h2, h3⟩ := exGrow_queries (361/400) (94/100) (by decide +kernel)
    have e0 : exDecider q0 = .unsat := by
      unfold exDecider
      refine if_neg ?_
      rintro ⟨ρ, hρ⟩
      have := (h0 ρ).1 hρ
      norm_num at this
      rcases this with ⟨⟨a, b⟩, c⟩ | ⟨⟨a, b⟩, c⟩
      · nlinarith
      · have : ρ 0 * (-ρ 0 + ρ 0 ^ 3) = ρ 0 ^ 2 * (ρ 0 ^ 2 - 1) := by ring
        nlinarith [mul_pos (show (0 : ℝ) < ρ 0 ^ 2 by linarith) (show (0 : ℝ) < 1 - ρ 0 ^ 2 by linarith)]
    have e1 : exDecider q1 = .sat (fun _ => some (.rat (97/100))) := by
      unfold exDecider
      refine if_pos ⟨fun _ => 97/100, (h1 _).2 ?_⟩
      norm_num
    have e2 : exDecider q2 = .unsat := by
      unfold exDecider
      refine if_neg ?_
      rintro ⟨ρ, hρ⟩
      have := (h2 ρ).1 hρ
      norm_num at this
      obtain ⟨⟨a, b, c⟩, d, e⟩ := this
      nlinarith
    have hv : verify smtBackend 1 (fun _ _ _ => 0) (fun _ => exDecider) [[(XD, q0)], [(XI, q1), (XU, q2)], [(XD, q3)]] =
        .ok ⟨false, [(XD, []), (XI, List.replicate 21 [97/100]), (XU, [])]⟩ := by
      unfold verify
      simp [solveGroups, solveGroup, e0, e1, e2, Dict.set, Dict.values, XD, XI, XU, smtBackend, Answer.isSat, Answer.isUnsat, fillCex, computeModel,
        computeModel.go, Answer.value, randomise, bind, Except.bind, pure, Except.pure, List.range, List.range.loop, List.replicate]
    unfold queriesDouble at h
    obtain ⟨d, hdd, hq⟩ := except_bind_ok h
    obtain ⟨⟨⟨V, Vdot⟩, ⟨B, Bdot⟩⟩, ht, hq⟩ := except_bind_ok hq
    have hb := failed_pass exGrowCfg.loop (freezeComponents exDecidedWorld exGrowCfg false exGrowOpt)
      (initState (freezeComponents exDecidedWorld exGrowCfg false exGrowOpt) (((exGrowV, 0), exGrowB (94/100)), false) () [(XD, []), (XI, [[19/20]]), (XU, [])])
      (((exGrowV, 361/400), exGrowB (94/100)), false) () (V, B) (Vdot, Bdot) [(XD, []), (XI, List.replicate 21 [97/100]), (XU, [])] []
      [(XD, []), (XI, [19/20] :: List.replicate 21 [97/100]), (XU, [])] [(XD, []), (XI, [19/20] :: List.replicate 21 [97/100]), (XU, [])]
      ?_ ?_ ?_ rfl (Or.inl rfl) rfl (by show (10 : ℤ) ≠ 0; decide) rfl
    · refine ⟨_, .tail (.refl _) hb, ?_, rfl, [19/20] :: List.replicate 21 [97/100], rfl, by simp⟩
      show freezeAfter exGrowCfg.cert false false [(XD, []), (XI, List.replicate 21 [(97/100 : ℚ)]), (XU, [])] = true
      rfl
    · show freezeLearn _ _ exGrowOpt _ = _
      unfold freezeLearn exGrowOpt
      rw [if_pos (by rfl)]
      have : (List.map (fun x : List ℚ => (x.headD 0) ^ 2) ((Dict.get? [(XD, []), (XI, [[19/20]]), (XU, [])] XI).getD [])).foldr max 0 = (361/400 : ℚ) := by
        decide +kernel
      simp only [Bind.bind, Except.bind]
      show Except.ok ((((_, (List.map (fun x : List ℚ => (x.headD 0) ^ 2) ((Dict.get? [(XD, []), (XI, [[19/20]]), (XU, [])] XI).getD [])).foldr max 0), _), _), _) = _
      rw [this]
      rfl
    · show (do
        let ((V, Vdot), (B, Bdot)) ← translateCTDouble exGrowCfg.lib exGrowCfg.rounding none exGrowV (exGrowB (94/100)) (vars exGrowCfg.nVars) exGrowF
        return ((V, B), (Vdot, Bdot)) : Except Err _) = _
      have ht : translateCTDouble exGrowCfg.lib exGrowCfg.rounding none exGrowV (exGrowB (94/100)) (vars exGrowCfg.nVars) exGrowF = .ok ((V, Vdot), (B, Bdot)) := ht
      rw [ht]; rfl
    · have hdd : initialiseDomains exGrowCfg.lib exGrowCfg.nVars exGrowCfg.cert exGrowCfg.domains = .ok d := hdd
      have hq : safeRoaConstraints exGrowCfg.nVars exGrowCfg.llo (361/400) d V Vdot B Bdot = .ok [[(XD, q0)], [(XI, q1), (XU, q2)], [(XD, q3)]] := hq
      have hv : verify exDecidedWorld.backend exGrowCfg.nVars (exDecidedWorld.noise 0) (exDecidedWorld.oracle 0) [[(XD, q0)], [(XI, q1), (XU, q2)], [(XD, q3)]] = _ := hv
      have hi : (initState (freezeComponents exDecidedWorld exGrowCfg false exGrowOpt) (((exGrowV, 0), exGrowB (94/100)), false) () [(XD, []), (XI, [[19/20]]), (XU, [])]).iters = 0 := rfl
      rw [hi]
      have hct : exGrowCfg.cert = .STABLESAFE := rfl
      simp only [freezeComponents, doubleComponents, Bind.bind, Except.bind, hdd]
      simp only [hct, hq, hv]
      rfl

noncomputable def exRarDecided : World Answer Unit ((Net × ℚ) × Net) :=
  { idealWorld _ exRAR.f with oracle := fun _ _ => exDecider }

/-- Proposes the correct reach function of the RAR example and the wrong barrier function `x² + 1`. -/
def exRarOpt {E : Type} (_ : LoopState (((Net × ℚ) × Net) × Bool) Unit (List ℚ) E) : Except Err (((Net × ℚ) × Net) × Unit) :=
  .ok (((exRAR.net, 0), exBadReach), ())

theorem exDecider_sound : ∀ φ, exDecider φ = .unsat → ∀ ρ : Env, ¬ φ.holds ρ := by
  intro φ h ρ hρ
  unfold exDecider at h
  rw [if_pos ⟨ρ, hρ⟩] at h
  cases h

theorem exDecider_unsat {φ : Formula} (h : ∀ ρ : Env, ¬ φ.holds ρ) : exDecider φ = .unsat := by
  unfold exDecider
  exact if_neg fun ⟨ρ, hρ⟩ => h ρ hρ

/-- Non-vacuity of `C69_rar_frozen_verified` and `C69_rar_frozen_reaches`: a run that freezes a verified reach function. -/
theorem C69_rar_frozen_reached :
    SoundWorld exRarCfg exRarDecided ∧ AlwaysAnswers exRarDecided ∧ WFDomains exRarCfg.nVars exRarCfg.domains ∧ ReachSets exRarCfg.nVars exRarCfg.domains ∧
    ∃ s, Steps exRarCfg.loop (freezeComponents exRarDecided exRarCfg false exRarOpt)
        (initState (freezeComponents exRarDecided exRarCfg false exRarOpt) (((exRAR.net, 0), exBadReach), false) () [(XG, [])]) 1 s ∧
      frozenIn exRarCfg false s = true ∧ s.net.1.1.1.inputSize = exRarCfg.nVars ∧ smoothActs s.net.1.1.1 := by
  refine ⟨.smt _ rfl (fun i k φ h => exDecider_sound φ h) (fun i β b φ h => idealSolver_sound φ (by rw [show idealSolver φ = .unsat from h]; rfl)), ?_,
    exRAR_smooth.1.sets, exRAR_sets, ?_⟩
  · refine smt_answers _ rfl fun i k φ h => ?_
    have h : exDecider φ = .unknown := h
    unfold exDecider at h
    split at h <;> cases h
  obtain ⟨ga, hqa, haa⟩ := exRAR_accepted
  have hra := accepted_refutes (rar_distinct (s := exRAR) rfl hqa) haa
  obtain ⟨g1, _, _, _, _, _, _, _, _, _, _, _, _, _, hr1, _, _, _, hga, _⟩ := rar_split (s := exRAR) rfl hqa
  have h1 : roundBy 3 1 = 1 := by decide +kernel
  have h0 : roundBy 3 0 = 0 := by decide +kernel
  have hq : ∃ p1 p2 p3 b1 b2 b3, queriesDouble exRAR exBadReach = .ok [[(XI, p1), (XU, p2)], [(XD, p3)], [(XG, b1), (XNF, b2)], [(XF, b3)]] ∧
      (∃ ρ : Env, b1.holds ρ) ∧ ∀ ρ : Env, ¬ b2.holds ρ := by
    refine ⟨_, _, _, _, _, _, rfl, ⟨fun _ => 0, ?_⟩, fun ρ h => ?_⟩
    · simp [Formula.holds, Formula.conj, Term.eval, Term.sum, leZero, geZero, gtZero, factors, vars, h1, h0, exRAR, exReach, exBadReach, eyeJac,
        postVal, postGrad, gradTerms, hiddenBias, diagJac]
      norm_num
    · simp [Formula.holds, Formula.conj, Term.eval, Term.sum, leZero, geZero, gtZero, factors, vars, h1, h0, exRAR, exReach, exBadReach, eyeJac,
        postVal, postGrad, gradTerms, hiddenBias, diagJac] at h
      norm_num at h
      norm_cast at h
      nlinarith [h.1.1, sq_nonneg (ρ 0)]
  obtain ⟨p1, p2, p3, b1, b2, b3, hq, hb1, hb2⟩ := hq
  obtain ⟨g1', _, _, _, _, _, _, _, _, _, _, _, _, _, hr2, _, _, _, hg, _⟩ := rar_split (s := exRAR) rfl hq
  rw [hr1] at hr2
  cases hr2
  have hu : ∀ g ∈ g1, ∀ q ∈ g, exDecider q.2 = .unsat := fun g hg q hq =>
    exDecider_unsat (hra g (by rw [hga]; exact List.mem_append.2 (Or.inl hg)) q hq)
  have hg1 : g1 = [[(XI, p1), (XU, p2)], [(XD, p3)]] := by
    have hg : [[(XI, p1), (XU, p2)], [(XD, p3)]] ++ [[(XG, b1), (XNF, b2)], [(XF, b3)]] = g1 ++ _ := hg
    exact (List.append_inj_left' hg rfl).symm
  subst hg1
  have e1 : exDecider p1 = .unsat := hu _ List.mem_cons_self (XI, p1) (by simp)
  have e2 : exDecider p2 = .unsat := hu _ (List.mem_cons_self) (XU, p2) (by simp)
  have e3 : exDecider p3 = .unsat := hu [(XD, p3)] (by simp) (XD, p3) (by simp)
  have e4 : exDecider b1 = .sat (fun _ => some (.rat (97/100))) := by unfold exDecider; exact if_pos hb1
  have e5 : exDecider b2 = .unsat := exDecider_unsat hb2
  have hv : verify smtBackend 1 (fun _ _ _ => 0) (fun _ => exDecider) [[(XI, p1), (XU, p2)], [(XD, p3)], [(XG, b1), (XNF, b2)], [(XF, b3)]] =
      .ok ⟨false, [(XI, []), (XU, []), (XD, []), (XG, List.replicate 21 [97/100]), (XNF, [])]⟩ := by
    unfold verify
    simp [solveGroups, solveGroup, e1, e2, e3, e4, e5, Dict.set, Dict.values, XD, XI, XU, XG, XNF, smtBackend, Answer.isSat, Answer.isUnsat, fillCex, computeModel,
      computeModel.go, Answer.value, randomise, bind, Except.bind, pure, Except.pure, List.range, List.range.loop, List.replicate]
  unfold queriesDouble at hq
  obtain ⟨d, hdd, hq⟩ := except_bind_ok hq
  obtain ⟨⟨⟨V, Vdot⟩, ⟨B, Bdot⟩⟩, ht, hq⟩ := except_bind_ok hq
  have hb := failed_pass exRarCfg.loop (freezeComponents exRarDecided exRarCfg false exRarOpt)
    (initState (freezeComponents exRarDecided exRarCfg false exRarOpt) (((exRAR.net, 0), exBadReach), false) () [(XG, [])])
    (((exRAR.net, 0), exBadReach), false) () (V, B) (Vdot, Bdot) [(XI, []), (XU, []), (XD, []), (XG, List.replicate 21 [97/100]), (XNF, [])] []
    [(XG, List.replicate 21 [97/100])] [(XG, List.replicate 21 [97/100])]
    ?_ ?_ ?_ rfl (Or.inr rfl) rfl (by show (10 : ℤ) ≠ 0; decide) rfl
  · refine ⟨_, .tail (.refl _) hb, ?_, rfl, exRAR_smooth.1.smooth⟩
    show freezeAfter exRarCfg.cert false false [(XI, []), (XU, []), (XD, []), (XG, List.replicate 21 [(97/100 : ℚ)]), (XNF, [])] = true
    rfl
  · rfl
  · show (do
      let ((V, Vdot), (B, Bdot)) ← translateCTDouble exRarCfg.lib exRarCfg.rounding none exRAR.net exBadReach (vars exRarCfg.nVars) exRAR.f
      return ((V, B), (Vdot, Bdot)) : Except Err _) = _
    have ht : translateCTDouble exRarCfg.lib exRarCfg.rounding none exRAR.net exBadReach (vars exRarCfg.nVars) exRAR.f = .ok ((V, Vdot), (B, Bdot)) := ht
    rw [ht]; rfl
  · have hdd : initialiseDomains exRarCfg.lib exRarCfg.nVars exRarCfg.cert exRarCfg.domains = .ok d := hdd
    have hq : rarConstraints d V Vdot B Bdot = .ok [[(XI, p1), (XU, p2)], [(XD, p3)], [(XG, b1), (XNF, b2)], [(XF, b3)]] := hq
    have hv : verify exRarDecided.backend exRarCfg.nVars (exRarDecided.noise 0) (exRarDecided.oracle 0) [[(XI, p1), (XU, p2)], [(XD, p3)], [(XG, b1), (XNF, b2)], [(XF, b3)]] = _ := hv
    have hi : (initState (freezeComponents exRarDecided exRarCfg false exRarOpt) (((exRAR.net, 0), exBadReach), false) () [(XG, [])]).iters = 0 := rfl
    rw [hi]
    have hct : exRarCfg.cert = .RAR := rfl
    simp only [freezeComponents, doubleComponents, Bind.bind, Except.bind, hdd]
    simp only [hct, hq, hv]
    rfl

end Fossil
