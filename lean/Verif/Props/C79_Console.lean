import Verif.Console
import Verif.Props.C27_Cegis
import Verif.Props.C66_Listing

/-!
# C79: what the console and the exit status say about the outcome
-/

namespace Fossil
open Spec

section
variable {N K P E : Type} {cfg : LoopCfg} {controlled : Bool} {c : Components N K P E}

theorem certificateOut_erase (V Vdot : E) (st : LoopState N K P E) :
    (certificateOut cfg controlled c V Vdot st).map Prod.snd = processCertificate cfg c V Vdot st := by
  unfold certificateOut processCertificate
  cases (if cfg.cert = .LYAPUNOV ∨ cfg.cert = .ROA then c.estimateBeta st.net else .ok ()) with
  | error e => rfl
  | ok u =>
    by_cases h : cfg.cert = .RSWS
    · simp only [h, if_true]
      cases c.betaSearch st.iters V Vdot with
      | error e => rfl
      | ok b => cases b <;> rfl
    · simp only [if_neg h]; rfl

theorem decideOut_erase (V Vdot : E) (st : LoopState N K P E) : (decideOut cfg controlled c V Vdot st).map Prod.snd = loopDecide cfg c V Vdot st := by
  unfold decideOut loopDecide
  split_ifs
  · exact certificateOut_erase V Vdot st
  · rfl
  · rfl
  · cases processCex cfg.double c st <;> rfl

theorem bodyOut_erase (st : LoopState N K P E) : (bodyOut cfg controlled c st).map Prod.snd = loopBody cfg c st := by
  unfold bodyOut loopBody
  cases c.learn st with
  | error e => rfl
  | ok a =>
    obtain ⟨net, ctrl⟩ := a
    simp only [Bind.bind, Except.bind]
    cases c.translate net ctrl with
    | error e => rfl
    | ok b =>
      obtain ⟨V, Vdot⟩ := b
      simp only
      cases c.verify st.iters net V Vdot with
      | error e => rfl
      | ok d =>
        obtain ⟨found, cex⟩ := d
        simp only
        cases c.consolidate st.iters net ctrl cex with
        | error e => rfl
        | ok traj =>
          simp only
          rw [← decideOut_erase (controlled := controlled)]
          cases decideOut cfg controlled c V Vdot (st.after net ctrl V Vdot found cex traj) with
          | error e => rfl
          | ok r => rfl

theorem bodyOut_some {st st' : LoopState N K P E} {stop : Bool} (h : loopBody cfg c st = .ok (stop, st')) : ∃ l, bodyOut cfg controlled c st = .ok (l, stop, st') := by
  rw [← bodyOut_erase (controlled := controlled)] at h
  cases hb : bodyOut cfg controlled c st with
  | error e => rw [hb] at h; cases h
  | ok r =>
    rw [hb] at h
    obtain ⟨l, s⟩ := r
    have : s = (stop, st') := Except.ok.inj h
    exact ⟨l, by rw [this]⟩

theorem loopBody_of_out {st st' : LoopState N K P E} {stop : Bool} {l : List Line} (h : bodyOut cfg controlled c st = .ok (l, stop, st')) :
    loopBody cfg c st = .ok (stop, st') := by
  rw [← bodyOut_erase (controlled := controlled), h]; rfl

theorem stepsOut_steps {st st' : LoopState N K P E} {k : ℕ} {ls : List Line} (h : StepsOut cfg controlled c st k ls st') : Steps cfg c st k st' := by
  induction h with
  | refl => exact .refl _
  | tail _ hb ih => exact .tail ih (loopBody_of_out hb)

theorem steps_stepsOut {st st' : LoopState N K P E} {k : ℕ} (h : Steps cfg c st k st') : ∃ ls, StepsOut cfg controlled c st k ls st' := by
  induction h with
  | refl => exact ⟨[], .refl _⟩
  | tail _ hb ih =>
    obtain ⟨ls, ih⟩ := ih
    obtain ⟨l, hl⟩ := bodyOut_some (controlled := controlled) hb
    exact ⟨ls ++ l, .tail ih hl⟩

/-- **C79 (nothing changed).** Writing to the console does not change the run: the runs with lines are exactly the runs of the loop. -/
theorem C79_same_runs (net : N) (ctrl : K) (S : Dict String (List P)) (out : LoopState N K P E) :
    Solves cfg c net ctrl S out ↔ ∃ lines, SolvesOut cfg controlled c net ctrl S lines out := by
  constructor
  · rintro ⟨k, st, h, hb⟩
    obtain ⟨ls, h⟩ := steps_stepsOut (controlled := controlled) h
    obtain ⟨l, hb⟩ := bodyOut_some (controlled := controlled) hb
    exact ⟨ls ++ l, k, st, ls, l, h, hb, rfl⟩
  · rintro ⟨lines, k, st, ls, l, h, hb, -⟩
    exact ⟨k, st, stepsOut_steps h, loopBody_of_out hb⟩

theorem processCex_found {b : Bool} {st st' : LoopState N K P E} (h : processCex b c st = .ok st') : st'.found = st.found := by
  unfold processCex at h
  split at h
  · cases h
  split at h
  · cases h
  cases h; rfl

/-- The lines of one pass, by what happened in it. -/
theorem bodyOut_lines {st st' : LoopState N K P E} {stop : Bool} {l : List Line} (h : bodyOut cfg controlled c st = .ok (l, stop, st')) :
    (stop = true ∧ st'.found = true ∧ l = [.success cfg.cert (controlled && !decide (cfg.cert = .RSWS))]) ∨
    (st'.found = false ∧ cfg.cert = .RSWS ∧ l = [.keepSearching] ∧ stop = decide (cfg.maxIters = st.iters)) ∨
    (stop = true ∧ st'.found = false ∧ st.timedOut = true ∧ l = [.timedOut]) ∨
    (stop = true ∧ st'.found = false ∧ st.timedOut = false ∧ cfg.maxIters = st.iters ∧ l = [.outOfIterations]) ∨
    (stop = false ∧ st'.found = false ∧ cfg.maxIters ≠ st.iters ∧ l = []) := by
  unfold bodyOut at h
  obtain ⟨⟨net, ctrl⟩, -, h⟩ := except_bind_ok h
  obtain ⟨⟨V, Vdot⟩, -, h⟩ := except_bind_ok h
  obtain ⟨⟨found, cex⟩, -, h⟩ := except_bind_ok h
  obtain ⟨traj, -, h⟩ := except_bind_ok h
  obtain ⟨⟨l', stop', st2⟩, h1, h⟩ := except_bind_ok h
  have h := Except.ok.inj h
  simp only [Prod.mk.injEq] at h
  obtain ⟨rfl, rfl, rfl⟩ := h
  have e1 : (st.after net ctrl V Vdot found cex traj).timedOut = st.timedOut := rfl
  have e2 : (st.after net ctrl V Vdot found cex traj).iters = st.iters := rfl
  generalize st.after net ctrl V Vdot found cex traj = s at h1 e1 e2
  rw [← e1, ← e2]
  clear e1 e2
  unfold decideOut at h1
  by_cases hf : s.found = true
  · rw [if_pos hf] at h1
    unfold certificateOut at h1
    split at h1
    · cases h1
    by_cases hc : cfg.cert = .RSWS
    · rw [if_pos hc] at h1
      split at h1
      · cases h1
      · cases h1
        exact Or.inl ⟨rfl, hf, by simp [hc]⟩
      · cases h1
        exact Or.inr (Or.inl ⟨rfl, hc, rfl, rfl⟩)
    · rw [if_neg hc] at h1
      cases h1
      exact Or.inl ⟨rfl, hf, by simp [hc]⟩
  · rw [if_neg hf] at h1
    have hf' : s.found = false := by simpa using hf
    by_cases ht : s.timedOut = true
    · rw [if_pos ht] at h1
      cases h1
      exact Or.inr (Or.inr (Or.inl ⟨rfl, hf', ht, rfl⟩))
    · rw [if_neg ht] at h1
      by_cases hm : cfg.maxIters = s.iters
      · rw [if_pos hm] at h1
        cases h1
        exact Or.inr (Or.inr (Or.inr (Or.inl ⟨rfl, hf', by simpa using ht, hm, rfl⟩)))
      · rw [if_neg hm] at h1
        split at h1
        · cases h1
        · rename_i hp
          cases h1
          exact Or.inr (Or.inr (Or.inr (Or.inr ⟨rfl, (processCex_found hp).trans hf', hm, rfl⟩)))

/-- While the run goes on only `keepSearching` is written, and only for reach-while-stay. -/
theorem stepsOut_lines {st st' : LoopState N K P E} {k : ℕ} {ls : List Line} (h : StepsOut cfg controlled c st k ls st') :
    (∀ l ∈ ls, l = .keepSearching) ∧ (ls ≠ [] → cfg.cert = .RSWS) ∧ ls.length ≤ k := by
  induction h with
  | refl => simp
  | tail _ hb ih =>
    obtain ⟨i1, i2, i3⟩ := ih
    rcases bodyOut_lines hb with ⟨h, -⟩ | ⟨-, hc, rfl, -⟩ | ⟨h, -⟩ | ⟨h, -⟩ | ⟨-, -, -, rfl⟩
    · cases h
    · refine ⟨?_, fun _ => hc, by simpa using i3⟩
      intro l hl
      rcases List.mem_append.1 hl with hl | hl
      · exact i1 l hl
      · exact List.mem_singleton.1 hl
    · cases h
    · cases h
    · rw [List.append_nil]; exact ⟨i1, i2, by omega⟩

/-- **C79 (what a run writes).** For every run that ends, whatever the components do: the last line says how it ended and all lines before it are "keep searching".
If a certificate was found the last line is the success line with the configured certificate's name; otherwise it is "Out of iterations" after exactly the allowed
number of iterations, or, for reach-while-stay, "keep searching" again. -/
theorem C79_last_line (net : N) (ctrl : K) (S : Dict String (List P)) (lines : List Line) (out : LoopState N K P E)
    (h : SolvesOut cfg controlled c net ctrl S lines out) :
    ∃ before last, lines = before ++ [last] ∧ (∀ l ∈ before, l = .keepSearching) ∧ (before ≠ [] → cfg.cert = .RSWS) ∧ before.length < out.iters ∧
      (out.found = true → last = .success cfg.cert (controlled && !decide (cfg.cert = .RSWS))) ∧
      (out.found = false → cfg.maxIters + 1 = out.iters ∧ (last = .outOfIterations ∨ last = .keepSearching ∧ cfg.cert = .RSWS)) := by
  obtain ⟨k, st, ls, l, h, hb, rfl⟩ := h
  obtain ⟨h1, h2, h3⟩ := stepsOut_lines h
  have hk := steps_iters (stepsOut_steps h)
  have hto : st.timedOut = false := by rw [hk.2.1]; rfl
  have hit : out.iters = st.iters + 1 := (body_iters (loopBody_of_out hb)).1
  have hk0 : st.iters = k := by rw [hk.1]; simp [initState]
  rcases bodyOut_lines hb with ⟨-, hf, rfl⟩ | ⟨hf, hc, rfl, hs⟩ | ⟨-, -, ht, -⟩ | ⟨-, hf, -, hm, rfl⟩ | ⟨h, -⟩
  · exact ⟨ls, _, rfl, h1, h2, by omega, fun _ => rfl, fun h => by rw [hf] at h; cases h⟩
  · exact ⟨ls, _, rfl, h1, h2, by omega, (fun h => by rw [hf] at h; cases h), fun _ => ⟨by rw [hit, of_decide_eq_true hs.symm]; push_cast; rfl, Or.inr ⟨rfl, hc⟩⟩⟩
  · rw [hto] at ht; cases ht
  · exact ⟨ls, _, rfl, h1, h2, by omega, (fun h => by rw [hf] at h; cases h), fun _ => ⟨by rw [hit, hm]; push_cast; rfl, Or.inl rfl⟩⟩
  · cases h

/-- **C79 (the success line is right).** A success line is on the console exactly if the result says that a certificate was found; it is written once, and it names the
configured certificate type. -/
theorem C79_success_line (net : N) (ctrl : K) (S : Dict String (List P)) (lines : List Line) (out : LoopState N K P E)
    (h : SolvesOut cfg controlled c net ctrl S lines out) :
    (out.found = true ↔ ∃ l ∈ lines, ∃ ct b, l = .success ct b) ∧ (∀ ct b, .success ct b ∈ lines → ct = cfg.cert) ∧
    (lines.filter (fun l => match l with | .success _ _ => true | _ => false)).length ≤ 1 := by
  obtain ⟨before, last, rfl, h1, -, -, h4, h5⟩ := C79_last_line net ctrl S lines out h
  have hb : ∀ ct b, Line.success ct b ∉ before := fun ct b hm => by cases h1 _ hm
  have hfil : before.filter (fun l => match l with | .success _ _ => true | _ => false) = [] := by
    rw [List.filter_eq_nil_iff]
    intro l hl
    rw [h1 l hl]; decide
  have hlast : ∀ ct b, last = .success ct b → out.found = true ∧ ct = cfg.cert := by
    intro ct b e
    cases hf : out.found with
    | true => rw [h4 hf] at e; cases e; exact ⟨rfl, rfl⟩
    | false =>
      rcases (h5 hf).2 with h | ⟨h, -⟩ <;> rw [h] at e <;> cases e
  refine ⟨⟨fun hf => ⟨last, by simp, _, _, h4 hf⟩, ?_⟩, ?_, ?_⟩
  · rintro ⟨l, hl, ct, b, rfl⟩
    rcases List.mem_append.1 hl with hl | hl
    · exact absurd hl (hb _ _)
    · exact (hlast ct b (List.mem_singleton.1 hl).symm).1
  · intro ct b hl
    rcases List.mem_append.1 hl with hl | hl
    · exact absurd hl (hb _ _)
    · exact (hlast ct b (List.mem_singleton.1 hl).symm).2
  · rw [List.filter_append, hfil]
    simp only [List.nil_append]
    exact (List.length_filter_le _ _).trans (by simp)

/-- **C79 (one line).** For every certificate other than reach-while-stay exactly one line is written. -/
theorem C79_one_line (net : N) (ctrl : K) (S : Dict String (List P)) (lines : List Line) (out : LoopState N K P E) (hc : cfg.cert ≠ .RSWS)
    (h : SolvesOut cfg controlled c net ctrl S lines out) :
    lines = [if out.found = true then .success cfg.cert controlled else .outOfIterations] := by
  obtain ⟨before, last, rfl, -, h2, -, h4, h5⟩ := C79_last_line net ctrl S lines out h
  have e : before = [] := by
    by_contra hne
    exact hc (h2 hne)
  subst e
  cases hf : out.found with
  | true => rw [h4 hf]; simp [hc]
  | false =>
    rcases (h5 hf).2 with h | ⟨-, h⟩
    · rw [h]; simp
    · exact absurd h hc

/-- The texts of the lines are different: reading them tells the outcomes apart, except which certificate's success line it is for two types with the same name
(there are none). -/
theorem C79_texts (l l' : Line) (h : l.text = l'.text) : l = l' := by
  have all : ∀ l : Line, l ∈ [Line.keepSearching, .timedOut, .outOfIterations] ++ CertType.all.map (Line.success · false) ++ CertType.all.map (Line.success · true) := by
    intro l
    cases l with
    | success ct b => cases ct <;> cases b <;> decide
    | keepSearching => decide
    | timedOut => decide
    | outOfIterations => decide
  have key : ∀ l ∈ [Line.keepSearching, .timedOut, .outOfIterations] ++ CertType.all.map (Line.success · false) ++ CertType.all.map (Line.success · true),
      ∀ l' ∈ [Line.keepSearching, .timedOut, .outOfIterations] ++ CertType.all.map (Line.success · false) ++ CertType.all.map (Line.success · true),
      l.text = l'.text → l = l' := by decide +kernel
  exact key l (all l) l' (all l') h

end

/-! ### the command line -/

namespace Spec

/-- The arguments name something to do: an existing `.yaml` file or a certificate type, in any case of letters, and nothing that is wrong. -/
structure GoodArgs (present : String → Bool) (a : CmdArgs) : Prop where
  some : a.file ≠ none ∨ a.certificate ≠ none
  file : ∀ f, a.file = Option.some f → present f = true ∧ ∃ stem : List Char, f.toList = stem ++ ['.', 'y', 'a', 'm', 'l']
  cert : ∀ s, a.certificate = Option.some s → ∃ ct : CertType, ct.name = s.toUpper

end Spec

theorem mem_all_certs (ct : CertType) : ct ∈ CertType.all := by cases ct <;> decide

theorem certName_injective : ∀ ct ct' : CertType, ct.name = ct'.name → ct = ct' := by
  intro a b; cases a <;> cases b <;> simp [CertType.name]

theorem certChoice_iff {s : String} {ct : CertType} : certChoice s = some ct ↔ ct.name = s.toUpper := by
  unfold certChoice
  constructor
  · intro h
    simpa using List.find?_some h
  · intro h
    cases hf : CertType.all.find? (fun ct => decide (ct.name = s.toUpper)) with
    | none =>
      have := List.find?_eq_none.1 hf ct (mem_all_certs ct)
      simp [h] at this
    | some ct' =>
      have := List.find?_some hf
      simp only [decide_eq_true_eq] at this
      rw [certName_injective ct' ct (this.trans h.symm)]

theorem argsOk_iff {present : String → Bool} {a : CmdArgs} : argsOk present a = true ↔ GoodArgs present a := by
  obtain ⟨file, cert, plot⟩ := a
  have hy : ".yaml".toList = ['.', 'y', 'a', 'm', 'l'] := by decide
  constructor
  · intro h
    simp only [argsOk, Bool.and_eq_true, Bool.or_eq_true] at h
    obtain ⟨⟨h1, h2⟩, h3⟩ := h
    refine ⟨?_, fun f hf => ?_, fun s hs => ?_⟩
    · rcases h3 with h | h
      · left; intro e; cases e; cases h
      · right; intro e; cases e; cases h
    · cases hf
      simp only [Bool.and_eq_true, decide_eq_true_eq] at h1
      obtain ⟨p, ⟨stem, hs⟩⟩ := h1
      exact ⟨p, stem, by rw [← hs, hy]⟩
    · cases hs
      obtain ⟨ct, hct⟩ := Option.isSome_iff_exists.1 h2
      exact ⟨ct, certChoice_iff.1 hct⟩
  · rintro ⟨h1, h2, h3⟩
    simp only [argsOk, Bool.and_eq_true, Bool.or_eq_true]
    refine ⟨⟨?_, ?_⟩, ?_⟩
    · cases file with
      | none => rfl
      | some f =>
        obtain ⟨p, stem, hs⟩ := h2 f rfl
        simp only [Bool.and_eq_true, decide_eq_true_eq]
        exact ⟨p, stem, by rw [hy, hs]⟩
    · cases cert with
      | none => rfl
      | some s =>
        obtain ⟨ct, hct⟩ := h3 s rfl
        show (certChoice s).isSome = true
        rw [certChoice_iff.2 hct]; rfl
    · rcases h1 with h | h
      · left; cases file with
        | none => exact absurd rfl h
        | some f => rfl
      · right; cases cert with
        | none => exact absurd rfl h
        | some s => rfl

section
variable {α β : Type} (present : String → Bool) (run : String → Except Err (CmdResult α β)) (draw : β → Except Err Unit) (a : CmdArgs)

/-- **C79 (usage).** The command is rejected with status 2 exactly for bad arguments; nothing is read or run then. -/
theorem C79_usage : (command present run draw a).status = 2 ↔ ¬ GoodArgs present a := by
  rw [← argsOk_iff]
  unfold command
  by_cases h : argsOk present a = true
  · rw [if_pos h]
    refine ⟨fun e => ?_, fun e => absurd h e⟩
    exfalso
    have hg := argsOk_iff.1 h
    cases hc : a.certificate with
    | some s =>
      obtain ⟨ct, hct⟩ := hg.cert s hc
      rw [hc] at e
      simp only [certChoice_iff.2 hct] at e
      cases hs : ct.sets with
      | error er => rw [hs] at e; cases e
      | ok r => rw [hs] at e; cases e
    | none =>
      cases hf : a.file with
      | none => exact hg.some.elim (fun h => h hf) (fun h => h hc)
      | some f =>
        rw [hc, hf] at e
        dsimp only at e
        cases hr : run f with
        | error er => rw [hr] at e; cases e
        | ok r =>
          rw [hr] at e
          dsimp only at e
          by_cases hp : a.plot = true
          · rw [if_pos hp] at e
            cases hd : plotResult draw r with
            | error er => rw [hd] at e; cases e
            | ok u => rw [hd] at e; cases e
          · rw [if_neg hp] at e; cases e
  · rw [if_neg h]; exact ⟨fun _ => h, fun _ => rfl⟩

/-- **C79 (listing).** If a certificate type is named, its sets are listed and no file is read or run, even if one is given; `CUSTOM` raises. -/
theorem C79_listing (h : GoodArgs present a) (ct : CertType) (s : String) (hs : a.certificate = some s) (hct : ct.name = s.toUpper) :
    (ct ≠ .CUSTOM → ∃ d x, ct.sets = .ok (d, x) ∧ command present run draw a = .listed d x) ∧
    (ct = .CUSTOM → command present run draw a = .raised .nameError) := by
  unfold command
  rw [if_pos (argsOk_iff.2 h), hs]
  simp only [certChoice_iff.2 hct]
  constructor
  · intro hne
    cases ct <;> first | exact absurd rfl hne | exact ⟨_, _, rfl, rfl⟩
  · rintro rfl; rfl

/-- **C79 (the status is blind).** A file is run and ends: the status is 0 whatever the result is, found or not. Only an exception changes it. -/
theorem C79_status (h : GoodArgs present a) (hc : a.certificate = none) (f : String) (hf : a.file = some f) (hp : a.plot = false) :
    (∀ r, run f = .ok r → command present run draw a = .ended r ∧ (command present run draw a).status = 0) ∧
    (∀ e, run f = .error e → command present run draw a = .raised e ∧ (command present run draw a).status = 1) := by
  have key : command present run draw a = match run f with
      | .error e => .raised e
      | .ok r => .ended r := by
    unfold command
    rw [if_pos (argsOk_iff.2 h), hc, hf]
    dsimp only
    cases run f with
    | error e => rfl
    | ok r => rw [hp]; rfl
  constructor
  · intro r hr
    rw [key, hr]; exact ⟨rfl, rfl⟩
  · intro e hr
    rw [key, hr]; exact ⟨rfl, rfl⟩

/-- **C79 (plot of a verification).** A file with a candidate and two variables, run with `--plot`, always ends with an exception after the verification, whatever its
outcome. -/
theorem C79_verify_plot (h : GoodArgs present a) (hc : a.certificate = none) (f : String) (hf : a.file = some f) (hp : a.plot = true) (r : α)
    (hr : run f = .ok (.verified 2 r)) : command present run draw a = .raised .attributeError ∧ (command present run draw a).status = 1 := by
  have : command present run draw a = .raised .attributeError := by
    unfold command
    rw [if_pos (argsOk_iff.2 h), hc, hf]
    simp only [hr, hp, if_true]
    rfl
  rw [this]; exact ⟨rfl, rfl⟩

/-- **C79 (plot otherwise).** With another number of variables plotting is skipped with a warning, and otherwise the status is that of the drawing. -/
theorem C79_plot (h : GoodArgs present a) (hc : a.certificate = none) (f : String) (hf : a.file = some f) (hp : a.plot = true) (n : ℕ) (r : β)
    (hr : run f = .ok (.synthesised n r)) :
    (n ≠ 2 → command present run draw a = .ended (.synthesised n r)) ∧
    (n = 2 → draw r = .ok () → command present run draw a = .ended (.synthesised n r)) ∧
    (n = 2 → ∀ e, draw r = .error e → command present run draw a = .raised e) := by
  have key : command present run draw a = match plotResult draw (.synthesised n r : CmdResult α β) with
      | .error e => .raised e
      | .ok _ => .ended (.synthesised n r) := by
    unfold command
    rw [if_pos (argsOk_iff.2 h), hc, hf]
    simp only [hr, hp, if_true]
    cases plotResult draw (.synthesised n r : CmdResult α β) <;> rfl
  rw [key]
  refine ⟨fun hn => ?_, fun hn hd => ?_, fun hn e hd => ?_⟩
  · simp [plotResult, hn]
  · simp [plotResult, hn, hd]
  · simp [plotResult, hn, hd]

end

example : GoodArgs (fun _ => true) ⟨some "run.yaml", none, true⟩ :=
  ⟨Or.inl (by simp), fun f hf => by cases hf; exact ⟨rfl, ['r', 'u', 'n'], by decide⟩, fun s hs => by cases hs⟩

example : GoodArgs (fun _ => false) ⟨none, some "roa", false⟩ :=
  ⟨Or.inr (by simp), (fun f hf => by cases hf), fun s hs => by cases hs; exact ⟨.ROA, by decide +kernel⟩⟩

example : ¬ GoodArgs (fun _ => true) ⟨some "run.yml", none, false⟩ := by
  rw [← argsOk_iff]; decide +kernel

/-- Components of a reach-while-stay run whose third verification succeeds and whose stay condition is proved in pass 3 only. -/
def exConsole : Components Unit Unit Unit Unit where
  learn _ := .ok ((), ())
  translate _ _ := .ok ((), ())
  verify i _ _ _ := .ok (decide (2 ≤ i), [])
  consolidate _ _ _ _ := .ok []
  betaSearch i _ _ := .ok (decide (3 ≤ i))
  estimateBeta _ := .ok ()
  dyn _ x := x

/-- Non-vacuity: this run writes "keep searching" once and then the success line; stopped one pass earlier it only writes "keep searching"; with reach-while-avoid it succeeds
in the third pass. -/
example : (∃ out, SolvesOut ⟨.RSWS, 10⟩ true exConsole () () [] [.keepSearching, .success .RSWS false] out ∧ out.found = true) ∧
    (∃ out, SolvesOut ⟨.RSWS, 2⟩ true exConsole () () [] [.keepSearching] out ∧ out.found = false) ∧
    ∃ out, SolvesOut ⟨.RWS, 10⟩ true exConsole () () [] [.success .RWS true] out ∧ out.found = true := by
  refine ⟨⟨_, ⟨3, _, [.keepSearching], [.success .RSWS false], .tail (ls := []) (.tail (ls := []) (l := []) (.tail (ls := []) (l := []) (.refl _) rfl) rfl) rfl, rfl, rfl⟩, rfl⟩,
    ⟨_, ⟨2, _, [], [.keepSearching], .tail (ls := []) (l := []) (.tail (ls := []) (l := []) (.refl _) rfl) rfl, rfl, rfl⟩, rfl⟩,
    ⟨_, ⟨2, _, [], [.success .RWS true], .tail (ls := []) (l := []) (.tail (ls := []) (l := []) (.refl _) rfl) rfl, rfl, rfl⟩, rfl⟩⟩

end Fossil
