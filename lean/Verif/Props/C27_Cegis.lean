/-
C14, C27-C29: the CEGIS loop.
-/
import Verif.Cegis

namespace Fossil

variable {N K P E : Type}

theorem loopDecide_inv {cfg : LoopCfg} {c : Components N K P E} {V Vdot : E} {st : LoopState N K P E}
    {r : Bool × LoopState N K P E} (hr : loopDecide cfg c V Vdot st = .ok r) :
    if st.found = true then processCertificate cfg c V Vdot st = .ok (r.1, r.2)
      else if st.timedOut = true then r.1 = true ∧ r.2 = st
      else if cfg.maxIters = st.iters then r.1 = true ∧ r.2 = st
      else r.1 = false ∧ processCex cfg.double c st = .ok r.2 := by
  unfold loopDecide at hr
  by_cases hf : st.found = true
  · rw [if_pos hf] at hr ⊢; exact hr
  rw [if_neg hf] at hr ⊢
  by_cases h2 : st.timedOut = true
  · rw [if_pos h2] at hr ⊢; cases hr; exact ⟨rfl, rfl⟩
  rw [if_neg h2] at hr ⊢
  by_cases h3 : cfg.maxIters = st.iters
  · rw [if_pos h3] at hr ⊢; cases hr; exact ⟨rfl, rfl⟩
  rw [if_neg h3] at hr ⊢
  split at hr
  · cases hr
  · rename_i hs; cases hr; exact ⟨rfl, hs⟩

/-- Everything one pass of the loop does. -/
theorem loopBody_inv {cfg : LoopCfg} {c : Components N K P E} {st st' : LoopState N K P E} {stop : Bool}
    (h : loopBody cfg c st = .ok (stop, st')) :
    ∃ net ctrl V Vdot found cex traj st2, c.learn st = .ok (net, ctrl) ∧ c.translate net ctrl = .ok (V, Vdot) ∧
      c.verify st.iters net V Vdot = .ok (found, cex) ∧ c.consolidate st.iters net ctrl cex = .ok traj ∧ st' = st2.tick ∧
      (if found = true then
          processCertificate cfg c V Vdot (st.after net ctrl V Vdot found cex traj) = .ok (stop, st2)
        else if st.timedOut = true then stop = true ∧ st2 = st.after net ctrl V Vdot found cex traj
        else if cfg.maxIters = st.iters then stop = true ∧ st2 = st.after net ctrl V Vdot found cex traj
        else stop = false ∧ processCex cfg.double c (st.after net ctrl V Vdot found cex traj) = .ok st2) := by
  unfold loopBody at h
  simp only [bind, Except.bind] at h
  split at h
  · cases h
  rename_i nk hl
  split at h
  · cases h
  rename_i vv ht
  split at h
  · cases h
  rename_i fc hv
  split at h
  · cases h
  rename_i traj hc
  split at h
  · cases h
  rename_i r hr
  simp only [pure, Except.pure, Except.ok.injEq, Prod.mk.injEq] at h
  obtain ⟨rfl, rfl⟩ := h
  refine ⟨nk.1, nk.2, vv.1, vv.2, fc.1, fc.2, traj, r.2, hl, ht, hv, hc, rfl, ?_⟩
  exact loopDecide_inv hr

theorem processCertificate_inv {cfg : LoopCfg} {c : Components N K P E} {V Vdot : E} {st st' : LoopState N K P E}
    {stop : Bool} (h : processCertificate cfg c V Vdot st = .ok (stop, st')) :
    (stop = true ∧ st' = st ∧ (cfg.cert = .RSWS → c.betaSearch st.iters V Vdot = .ok true)) ∨
    (cfg.cert = .RSWS ∧ c.betaSearch st.iters V Vdot = .ok false ∧ stop = decide (cfg.maxIters = st.iters) ∧
      st' = { st with found := false }) := by
  unfold processCertificate at h
  split at h
  · cases h
  split at h
  · rename_i hc
    split at h
    · cases h
    · rename_i hb; cases h; exact Or.inl ⟨rfl, rfl, fun _ => hb⟩
    · rename_i hb; cases h; exact Or.inr ⟨hc, hb, rfl, rfl⟩
  · rename_i hc; cases h; exact Or.inl ⟨rfl, rfl, fun h => absurd h hc⟩

/-- **C27.** Whenever the loop reports success, the verifier reported `found = True` in the last pass for exactly the
symbolic certificate and derivative in the result, which the translator produced from exactly the network and
controller in the result, which in turn are what the last learning step produced. For RSWS the stay check succeeded
for the same formulas as well. -/
theorem C27_success_is_verified (cfg : LoopCfg) (c : Components N K P E) (net : N) (ctrl : K)
    (S : Dict String (List P)) (out : LoopState N K P E) (h : Solves cfg c net ctrl S out)
    (hf : out.found = true) :
    ∃ k st V Vdot cex, Steps cfg c (initState c net ctrl S) k st ∧ c.learn st = .ok (out.net, out.ctrl) ∧
      c.translate out.net out.ctrl = .ok (V, Vdot) ∧ out.V = some V ∧ out.Vdot = some Vdot ∧
      out.iters = st.iters + 1 ∧ c.verify st.iters out.net V Vdot = .ok (true, cex) ∧
      (cfg.cert = .RSWS → c.betaSearch st.iters V Vdot = .ok true) := by
  obtain ⟨k, st, hk, hb⟩ := h
  obtain ⟨n, kk, V, Vdot, found, cex, traj, st2, h1, h2, h3, h4, rfl, h5⟩ := loopBody_inv hb
  have hst2 : st2.found = true := hf
  cases found with
  | true =>
    simp only [if_true] at h5
    rcases processCertificate_inv h5 with ⟨-, rfl, hr⟩ | ⟨-, -, -, rfl⟩
    · exact ⟨k, st, V, Vdot, cex, hk, h1, h2, rfl, rfl, rfl, h3, hr⟩
    · simp [LoopState.after] at hst2
  | false =>
    simp only [Bool.false_eq_true, if_false] at h5
    split at h5
    · obtain ⟨-, rfl⟩ := h5; simp [LoopState.after] at hst2
    · split at h5
      · obtain ⟨-, rfl⟩ := h5; simp [LoopState.after] at hst2
      · simp at h5

/-- **C14 (partial).** For RSWS, success implies that the stay check succeeded for the returned certificate.
Missing: RSWA, whose certificate class is the same; there the claim is false (`C14_rswa_skips_stay_check`). -/
theorem C14_rsws_stay_checked_partial (cfg : LoopCfg) (hc : cfg.cert = .RSWS) (c : Components N K P E) (net : N)
    (ctrl : K) (S : Dict String (List P)) (out : LoopState N K P E) (h : Solves cfg c net ctrl S out)
    (hf : out.found = true) :
    ∃ i V Vdot, out.V = some V ∧ out.Vdot = some Vdot ∧ i + 1 = out.iters ∧ c.betaSearch i V Vdot = .ok true := by
  obtain ⟨k, st, V, Vdot, cex, -, -, -, h1, h2, h4, -, h3⟩ := C27_success_is_verified cfg c net ctrl S out h hf
  exact ⟨st.iters, V, Vdot, h1, h2, h4.symm, h3 hc⟩

/-- C14 is false for RSWA: whatever the components do, the beta search plays no role — success is reported even if the
stay check fails (or raises) for every certificate. -/
theorem C14_rswa_skips_stay_check (cfg : LoopCfg) (hc : cfg.cert = .RSWA) (c : Components N K P E)
    (bs : ℕ → E → E → Except Err Bool) (net : N) (ctrl : K) (S : Dict String (List P)) (out : LoopState N K P E)
    (h : Solves cfg c net ctrl S out) : Solves cfg { c with betaSearch := bs } net ctrl S out := by
  have hbody : ∀ st, loopBody cfg { c with betaSearch := bs } st = loopBody cfg c st := by
    intro st
    simp [loopBody, loopDecide, processCertificate, processCex, hc]
  have hsteps : ∀ {a k b}, Steps cfg c a k b → Steps cfg { c with betaSearch := bs } a k b := by
    intro a k b hs
    induction hs with
    | refl => exact .refl _
    | tail _ hb ih => exact .tail ih (by rw [hbody]; exact hb)
  obtain ⟨k, st, hk, hb⟩ := h
  exact ⟨k, st, hsteps hk, by rw [hbody]; exact hb⟩

/-! ### C28 -/

theorem body_iters {cfg : LoopCfg} {c : Components N K P E} {st st' : LoopState N K P E} {stop : Bool}
    (h : loopBody cfg c st = .ok (stop, st')) :
    st'.iters = st.iters + 1 ∧ st'.timedOut = st.timedOut ∧
      (stop = false → cfg.maxIters ≠ st.iters) ∧
      (stop = true → st'.found = false → st.timedOut = false → cfg.maxIters = st.iters) := by
  obtain ⟨n, kk, V, Vdot, found, cex, traj, st2, h1, h2, h3, h4, rfl, h5⟩ := loopBody_inv h
  cases found with
  | true =>
    simp only [if_true] at h5
    rcases processCertificate_inv h5 with ⟨rfl, rfl, hr⟩ | ⟨-, -, rfl, rfl⟩
    · simp [LoopState.after, LoopState.tick]
    · refine ⟨rfl, rfl, fun h => of_decide_eq_false h, fun h _ _ => of_decide_eq_true h⟩
  | false =>
    simp only [Bool.false_eq_true, if_false] at h5
    split at h5
    · rename_i ht
      obtain ⟨rfl, rfl⟩ := h5; simp [LoopState.after, LoopState.tick, ht]
    · split at h5
      · rename_i hm
        obtain ⟨rfl, rfl⟩ := h5; simp [LoopState.after, LoopState.tick, hm]
      · rename_i hm
        obtain ⟨rfl, h5⟩ := h5
        unfold processCex at h5
        split at h5
        · cases h5
        · split at h5
          · cases h5
          · cases h5; simp [LoopState.after, LoopState.tick, hm]

theorem steps_iters {cfg : LoopCfg} {c : Components N K P E} {st st' : LoopState N K P E} {k : ℕ}
    (h : Steps cfg c st k st') : st'.iters = st.iters + k ∧ st'.timedOut = st.timedOut ∧
      ∀ j < k, cfg.maxIters ≠ (st.iters + j : ℕ) := by
  induction h with
  | refl => simp
  | @tail k st' st'' _ hb ih =>
    obtain ⟨h1, h2, h3, -⟩ := body_iters hb
    obtain ⟨i1, i2, i3⟩ := ih
    refine ⟨by omega, by rw [h2, i2], fun j hj => ?_⟩
    rcases Nat.lt_succ_iff_lt_or_eq.1 hj with h | rfl
    · exact i3 j h
    · have := h3 rfl; rw [i1] at this; exact this

/-- **C28.** With a non-negative iteration limit `N` the loop performs at most `N + 1` passes, and exactly `N + 1` when it
ends without success; the reported iteration count is the number of passes. -/
theorem C28_iteration_bound (cfg : LoopCfg) (hN : 0 ≤ cfg.maxIters) (c : Components N K P E) (net : N) (ctrl : K)
    (S : Dict String (List P)) :
    (∀ k st, Steps cfg c (initState c net ctrl S) k st → (k : ℤ) ≤ cfg.maxIters ∧ st.iters = k) ∧
    (∀ out, Solves cfg c net ctrl S out → (out.iters : ℤ) ≤ cfg.maxIters + 1 ∧
      (out.found = false → (out.iters : ℤ) = cfg.maxIters + 1)) := by
  have h1 : ∀ k st, Steps cfg c (initState c net ctrl S) k st → (k : ℤ) ≤ cfg.maxIters ∧ st.iters = k := by
    intro k st h
    obtain ⟨a, -, b⟩ := steps_iters h
    simp only [initState, Nat.zero_add] at a b
    refine ⟨?_, a⟩
    by_contra hc
    push Not at hc
    exact b cfg.maxIters.toNat (by omega) (by omega)
  refine ⟨h1, fun out ⟨k, st, hk, hb⟩ => ?_⟩
  obtain ⟨a, b⟩ := h1 k st hk
  obtain ⟨i1, i2, -, i4⟩ := body_iters hb
  refine ⟨by omega, fun hf => ?_⟩
  have hto : st.timedOut = false := by rw [(steps_iters hk).2.1]; rfl
  have := i4 rfl hf hto
  omega

/-- **C28, termination.** If no component raises, the loop returns after at most `N + 1` passes. -/
theorem C28_terminates (cfg : LoopCfg) (hN : 0 ≤ cfg.maxIters) (c : Components N K P E) (net : N) (ctrl : K)
    (S : Dict String (List P)) :
    (∃ e, runLoop cfg c (cfg.maxIters.toNat + 1) (initState c net ctrl S) = .error e) ∨
    ∃ out, runLoop cfg c (cfg.maxIters.toNat + 1) (initState c net ctrl S) = .ok (some out) ∧
      Solves cfg c net ctrl S out := by
  have gen : ∀ fuel k st, Steps cfg c (initState c net ctrl S) k st → cfg.maxIters.toNat + 1 ≤ k + fuel →
      (∃ e, runLoop cfg c fuel st = .error e) ∨
      ∃ out, runLoop cfg c fuel st = .ok (some out) ∧ Solves cfg c net ctrl S out := by
    intro fuel
    induction fuel with
    | zero =>
      intro k st hk hle
      have := ((C28_iteration_bound cfg hN c net ctrl S).1 k st hk).1
      omega
    | succ fuel ih =>
      intro k st hk hle
      simp only [runLoop]
      cases hb : loopBody cfg c st with
      | error e => exact Or.inl ⟨e, rfl⟩
      | ok r =>
        obtain ⟨stop, st'⟩ := r
        cases stop with
        | true => exact Or.inr ⟨st', rfl, k, st, hk, hb⟩
        | false => exact ih (k + 1) st' (.tail hk hb) (by omega)
  exact gen _ 0 _ (.refl _) (by omega)

/-- C28: with a negative limit the count never matches, so a loop whose verifier never succeeds never stops. -/
theorem C28_negative_limit_never_stops (cfg : LoopCfg) (hN : cfg.maxIters < 0) (c : Components N K P E) (net : N)
    (ctrl : K) (S : Dict String (List P)) (hv : ∀ i n V Vdot cex, c.verify i n V Vdot ≠ .ok (true, cex))
    (out : LoopState N K P E) : ¬ Solves cfg c net ctrl S out := by
  rintro ⟨k, st, hk, hb⟩
  have hto : st.timedOut = false := by rw [(steps_iters hk).2.1]; rfl
  obtain ⟨n, kk, V, Vdot, found, cex, traj, st2, h1, h2, h3, h4, rfl, h5⟩ := loopBody_inv hb
  cases found with
  | true => exact hv _ _ _ _ _ h3
  | false =>
    simp only [Bool.false_eq_true, if_false, hto] at h5
    split at h5
    · rename_i hm; omega
    · simp at h5

/-! ### C29 -/

theorem addCes_get {dyn : P → P} {ces S Sdot S' Sdot' : Dict String (List P)} (hn : ces.keys.Nodup)
    (h : addCes dyn ces S Sdot = .ok (S', Sdot')) (l : String) :
    (Dict.get? S' l = match Dict.get? ces l with
      | some rows => (Dict.get? S l).map (· ++ rows)
      | none => Dict.get? S l) ∧
    (Dict.get? Sdot' l = match Dict.get? ces l with
      | some rows => if rows.isEmpty then Dict.get? Sdot l else (Dict.get? S l).map (fun old => (old ++ rows).map dyn)
      | none => Dict.get? Sdot l) := by
  induction ces generalizing S Sdot with
  | nil => simp [addCes] at h; obtain ⟨rfl, rfl⟩ := h; simp
  | cons e rest ih =>
    obtain ⟨lab, rows⟩ := e
    simp only [Dict.keys, List.map_cons, List.nodup_cons] at hn
    have hrest : Dict.get? rest lab = none := Dict.get?_eq_none_iff.2 hn.1
    unfold addCes at h
    split at h
    · rename_i hr
      have hr' : rows = [] := List.isEmpty_iff.1 hr
      obtain ⟨a, b⟩ := ih hn.2 h
      by_cases hl : lab = l
      · subst hl
        rw [hrest] at a b
        simp [a, b, hr']
      · simp only [Dict.get?_cons, hl, if_false]
        exact ⟨a, b⟩
    · rename_i hr
      split at h
      · cases h
      · rename_i old hold
        obtain ⟨a, b⟩ := ih hn.2 h
        by_cases hl : lab = l
        · subst hl
          rw [hrest] at a b
          simp only [Dict.get?_set, if_true] at a b
          simp [a, b, hold, hr]
        · simp only [Dict.get?_set, hl, if_false] at a b
          simp only [Dict.get?_cons, hl, if_false]
          exact ⟨a, b⟩

/-- The counterexample rows a pass adds to the data of a label: those the verifier returned for it and, in the single
loop, the trajectory if the label is the first one containing "lie". -/
def addedRows (double : Bool) (S : Dict String (List P)) (cex : Dict String (List P)) (traj : List P) (l : String) :
    List P :=
  (Dict.get? cex l).getD [] ++ (if !double && (Dict.keys S).find? hasLie == some l then traj else [])

theorem processCex_get {double : Bool} {c : Components N K P E} {st st' : LoopState N K P E}
    (hn : st.cex.keys.Nodup) (h : processCex double c st = .ok st') (l : String) :
    Dict.get? st'.S l = (Dict.get? st.S l).map (· ++ addedRows double st.S st.cex st.traj l) ∧
    Dict.get? st'.Sdot l = (if addedRows double st.S st.cex st.traj l = [] then Dict.get? st.Sdot l
      else (Dict.get? st'.S l).map (List.map (c.dyn st.ctrl))) ∧
    st'.ctrl = st.ctrl := by
  unfold processCex at h
  split at h
  · cases h
  rename_i cex2 hm
  split at h
  · cases h
  rename_i S' Sdot' hr
  have hS : st'.S = S' ∧ st'.Sdot = Sdot' ∧ st'.ctrl = st.ctrl := by cases h; exact ⟨rfl, rfl, rfl⟩
  rw [hS.1, hS.2.1]
  refine ⟨?_, ?_, hS.2.2⟩ <;> clear h hS
  all_goals
    have key : cex2.keys.Nodup ∧ (Dict.get? cex2 l).getD [] = addedRows double st.S st.cex st.traj l := by
      by_cases hd : double = true
      · subst hd
        simp only [if_true] at hm
        cases hm
        exact ⟨hn, by simp [addedRows]⟩
      · have hd : double = false := by simpa using hd
        subst hd
        simp only [Bool.false_eq_true, if_false] at hm
        unfold mergeTraj at hm
        split at hm
        · rename_i he
          cases hm
          have : st.traj = [] := List.isEmpty_iff.1 he
          exact ⟨hn, by simp [addedRows, this]⟩
        · split at hm
          · cases hm
          rename_i l' hl'
          split at hm
          · cases hm
          rename_i rows hrows
          cases hm
          refine ⟨Dict.nodup_keys_set _ _ _ hn, ?_⟩
          simp only [addedRows, hl']
          by_cases e : l' = l
          · subst e
            simp [Dict.get?_set, hrows]
          · rw [Dict.get?_set, if_neg e]
            simp [e]
    obtain ⟨a, b⟩ := addCes_get key.1 hr l
    rw [← key.2]
  · rw [a]
    cases Dict.get? cex2 l <;> cases Dict.get? st.S l <;> simp
  · rw [b, a]
    cases h2 : Dict.get? cex2 l with
    | none => simp
    | some rows => cases rows <;> cases Dict.get? st.S l <;> simp

/-- **C29 (one pass).** A pass that goes on because the verifier did not succeed appends, for each label, exactly the rows
returned for it (and, in the single loop, the trajectory to the Lie label); other labels keep their data, no data are
dropped or reordered. -/
theorem C29_pass_appends (cfg : LoopCfg) (c : Components N K P E) (st st' : LoopState N K P E)
    (hb : loopBody cfg c st = .ok (false, st')) (net ctrl) (hl : c.learn st = .ok (net, ctrl))
    (V Vdot) (ht : c.translate net ctrl = .ok (V, Vdot)) (cex) (hv : c.verify st.iters net V Vdot = .ok (false, cex))
    (hn : cex.keys.Nodup) (traj) (hc : c.consolidate st.iters net ctrl cex = .ok traj) (l : String) :
    Dict.get? st'.S l = (Dict.get? st.S l).map (· ++ addedRows cfg.double st.S cex traj l) := by
  obtain ⟨n, kk, V', Vdot', found, cex', traj', st2, h1, h2, h3, h4, rfl, h5⟩ := loopBody_inv hb
  rw [hl] at h1; cases h1
  rw [ht] at h2; cases h2
  rw [hv] at h3; cases h3
  rw [hc] at h4; cases h4
  simp only [Bool.false_eq_true, if_false] at h5
  split at h5
  · simp at h5
  split at h5
  · simp at h5
  exact (processCex_get hn h5.2 l).1

/-- What a pass that goes on does to the data: either nothing (the stay condition failed), or the counterexamples of this
pass are appended. -/
theorem pass_data {cfg : LoopCfg} {c : Components N K P E} {st st' : LoopState N K P E}
    (hcex : ∀ i n V Vdot f cex, c.verify i n V Vdot = .ok (f, cex) → cex.keys.Nodup)
    (hb : loopBody cfg c st = .ok (false, st')) :
    (st'.S = st.S ∧ st'.Sdot = st.Sdot) ∨
    ∃ cex traj, ∀ l, Dict.get? st'.S l = (Dict.get? st.S l).map (· ++ addedRows cfg.double st.S cex traj l) ∧
      Dict.get? st'.Sdot l = (if addedRows cfg.double st.S cex traj l = [] then Dict.get? st.Sdot l
        else (Dict.get? st'.S l).map (List.map (c.dyn st'.ctrl))) := by
  obtain ⟨n, kk, V', Vdot', found, cex, traj, st2, h1, h2, h3, h4, rfl, h5⟩ := loopBody_inv hb
  cases found with
  | true =>
    simp only [if_true] at h5
    rcases processCertificate_inv h5 with ⟨h, -⟩ | ⟨-, -, -, rfl⟩
    · cases h
    · exact Or.inl ⟨rfl, rfl⟩
  | false =>
    simp only [Bool.false_eq_true, if_false] at h5
    split at h5
    · simp at h5
    split at h5
    · simp at h5
    refine Or.inr ⟨cex, traj, fun l => ?_⟩
    obtain ⟨a, b, d⟩ := processCex_get (hcex _ _ _ _ _ _ h3) h5.2 l
    refine ⟨a, ?_⟩
    simp only [LoopState.tick]
    rw [d]
    exact b

/-- **C29, data only grow.** After any number of passes, every label still has its data as a prefix, and no label was
added or lost. (`hcex`: a Python dictionary has distinct keys.) -/
theorem C29_data_prefix (cfg : LoopCfg) (c : Components N K P E)
    (hcex : ∀ i n V Vdot f cex, c.verify i n V Vdot = .ok (f, cex) → cex.keys.Nodup)
    (st st' : LoopState N K P E) (k : ℕ) (hs : Steps cfg c st k st') (l : String) :
    (∀ old, Dict.get? st.S l = some old → ∃ new, Dict.get? st'.S l = some new ∧ old <+: new) ∧
    (Dict.get? st.S l = none → Dict.get? st'.S l = none) := by
  induction hs with
  | refl => exact ⟨fun old h => ⟨old, h, List.prefix_rfl⟩, id⟩
  | tail _ hb ih =>
    rcases pass_data hcex hb with ⟨h, -⟩ | ⟨cex, traj, h⟩
    · rw [h]; exact ih
    · rw [(h l).1]
      refine ⟨fun old ho => ?_, fun hn => by rw [ih.2 hn]; rfl⟩
      obtain ⟨new, h1, h2⟩ := ih.1 old ho
      rw [h1]
      exact ⟨_, rfl, h2.trans (List.prefix_append _ _)⟩

/-- **C29, every counterexample is kept.** Every counterexample the verifier returned in some pass is in the data of its
label after that pass and after all later passes. -/
theorem C29_counterexamples_kept (cfg : LoopCfg) (c : Components N K P E)
    (hcex : ∀ i n V Vdot f cex, c.verify i n V Vdot = .ok (f, cex) → cex.keys.Nodup)
    (st st1 st2 : LoopState N K P E) (k : ℕ) (hb : loopBody cfg c st = .ok (false, st1))
    (hs : Steps cfg c st1 k st2) (net ctrl) (hl : c.learn st = .ok (net, ctrl))
    (V Vdot) (ht : c.translate net ctrl = .ok (V, Vdot)) (cex) (hv : c.verify st.iters net V Vdot = .ok (false, cex))
    (l : String) (rows : List P) (hr : Dict.get? cex l = some rows) (p : P) (hp : p ∈ rows)
    (hlab : Dict.get? st.S l ≠ none) :
    ∃ data, Dict.get? st2.S l = some data ∧ p ∈ data := by
  obtain ⟨n, kk, V', Vdot', found, cex', traj, s2, h1, h2, h3, h4, -, -⟩ := loopBody_inv hb
  rw [hl] at h1; cases h1
  rw [ht] at h2; cases h2
  rw [hv] at h3; cases h3
  have h := C29_pass_appends cfg c st st1 hb net ctrl hl V Vdot ht cex hv (hcex _ _ _ _ _ _ hv) traj h4 l
  obtain ⟨old, ho⟩ := Option.ne_none_iff_exists'.1 hlab
  rw [ho] at h
  obtain ⟨new, hn, hpre⟩ := (C29_data_prefix cfg c hcex st1 st2 k hs l).1 _ h
  refine ⟨new, hn, hpre.subset ?_⟩
  simp [addedRows, hr, hp]

/-- **C29, alignment.** Without a trained controller (the dynamics do not depend on the controller state), after any number
of passes `Sdot[l]` is row by row the dynamics of `S[l]`. -/
theorem C29_aligned_partial (cfg : LoopCfg) (c : Components N K P E)
    (hcex : ∀ i n V Vdot f cex, c.verify i n V Vdot = .ok (f, cex) → cex.keys.Nodup)
    (f : P → P) (hf : ∀ k, c.dyn k = f) (net : N) (ctrl : K) (S : Dict String (List P))
    (st : LoopState N K P E) (k : ℕ) (hs : Steps cfg c (initState c net ctrl S) k st) (l : String) :
    Dict.get? st.Sdot l = (Dict.get? st.S l).map (List.map f) := by
  generalize hi : initState c net ctrl S = s0 at hs
  induction hs with
  | refl => subst hi; simp [initState, Dict.get?_mapVals, hf]
  | tail _ hb ih =>
    rcases pass_data hcex hb with ⟨h1, h2⟩ | ⟨cex, traj, h⟩
    · rw [h1, h2]; exact ih
    · rw [(h l).2]
      split
      · rename_i he
        rw [ih, (h l).1, he]
        simp
      · rw [hf]

/-- C29 with a trained controller: only the labels that received counterexamples are re-evaluated with the new
controller. In general alignment fails: here one pass changes the controller from 0 to 1, adds a point to label "a" only,
and leaves the derivatives of label "b" those of the old controller. (The learners for control synthesis recompute the
derivatives from `xdot_func`, learner.py:407-486, so training is unaffected.) -/
theorem C29_stale_derivatives :
    ∃ (c : Components Unit ℤ ℤ Unit) (S : Dict String (List ℤ)) (st : LoopState Unit ℤ ℤ Unit),
      Steps ⟨.LYAPUNOV, 10⟩ c (initState c () 0 S) 1 st ∧ st.ctrl = 1 ∧
      Dict.get? st.S "b" = some [5] ∧ Dict.get? st.Sdot "b" = some [0] ∧ [5].map (c.dyn st.ctrl) = [5] := by
  refine ⟨⟨fun _ => .ok ((), 1), fun _ _ => .ok ((), ()), fun _ _ _ _ => .ok (false, [("a", [3])]), fun _ _ _ _ => .ok [],
    fun _ _ _ => .ok true, fun _ => .ok (), fun k x => k * x⟩, [("a", [1]), ("b", [5])], _,
    .tail (.refl _) rfl, rfl, ?_⟩
  decide

/-- Non-vacuity of C27-C29: a run with one counterexample round and then success. -/
example : ∃ out : LoopState ℤ Unit ℤ ℤ,
    Solves ⟨.LYAPUNOV, 10⟩
      (⟨fun st => .ok (st.net + 1, ()), fun n _ => .ok (n, -n),
        fun _ _ V _ => .ok (if V = 1 then (false, [("lie", [3])]) else (true, [("lie", [])])), fun _ _ _ _ => .ok [],
        fun _ _ _ => .ok true, fun _ => .ok (), fun _ x => -x⟩ : Components ℤ Unit ℤ ℤ)
      0 () [("lie", [1, 2])] out ∧ out.found = true ∧ out.iters = 2 ∧ out.V = some 2 ∧
      Dict.get? out.S "lie" = some [1, 2, 3] ∧ Dict.get? out.Sdot "lie" = some [-1, -2, -3] :=
  ⟨_, ⟨1, _, .tail (.refl _) rfl, rfl⟩, by decide⟩

end Fossil
