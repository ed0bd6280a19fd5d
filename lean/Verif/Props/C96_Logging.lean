/-
C96: which messages a process shows, for every history of imports, verbosities, runs and messages.
-/
import Verif.Logging

namespace Fossil
namespace C96

/-! ### specification -/

/-- Verbosity 0 is warnings and worse, 1 adds information, 2 adds debugging; nothing else is a verbosity. -/
def thresholdOf (v : ℤ) : Option ℕ := if v = 0 then some 30 else if v = 1 then some 20 else if v = 2 then some 10 else none

/-- The threshold an event asks for, if any: a constructed run asks only with a verbosity other than 0. -/
def asks : LogEvent → Option ℕ
  | .setLevel v => thresholdOf v
  | .construct v => if v = 0 then none else thresholdOf v
  | _ => none

/-- The threshold after a history: the last one asked for, warnings to begin with. -/
def threshold (h : List LogEvent) : ℕ := (h.filterMap asks).getLast?.getD 30

/-- How often a history has set up the logger `n` or one above it. -/
def setups (h : List LogEvent) (n : LoggerName) : ℕ := h.countP fun e => match e with | .setup m => decide (m <+: n) | _ => false

/-- What an event shows after a history. -/
def shows (h : List LogEvent) : LogEvent → List LogRecord
  | .message n l t => if LogEvent.setup n ∈ h ∧ threshold h ≤ l then List.replicate (setups h n) ⟨n, l, t⟩ else []
  | _ => []

/-! ### invariant -/

theorem threshold_snoc (h : List LogEvent) (e : LogEvent) : threshold (h ++ [e]) = (asks e).getD (threshold h) := by
  unfold threshold
  rw [List.filterMap_append]
  cases he : asks e with
  | none => simp [he]
  | some a => simp [he]

theorem sum_update (l : List LoggerName) (hl : l.Nodup) (f : LoggerName → ℕ) (m : LoggerName) :
    (l.map (Function.update f m (f m + 1))).sum = (l.map f).sum + if m ∈ l then 1 else 0 := by
  induction l with
  | nil => simp
  | cons a l ih =>
    rw [List.nodup_cons] at hl
    by_cases ham : m = a
    · subst ham
      have := ih hl.2
      simp only [hl.1, if_false] at this
      simp [this]; omega
    · have := ih hl.2
      simp only [List.map_cons, List.sum_cons, this, List.mem_cons, ham, false_or, Function.update_of_ne (Ne.symm ham)]
      omega

theorem inits_nodup (n : LoggerName) : n.inits.Nodup := by
  induction n with
  | nil => simp
  | cons a n ih =>
    simp only [List.inits_cons, List.nodup_cons, List.mem_map, not_exists]
    refine ⟨by simp, ih.map ?_⟩
    intro x y hxy
    simpa using hxy

theorem inv (h : List LogEvent) :
    (logRun h).1.logLevel = threshold h ∧ (∀ n, n ∈ (logRun h).1.registered ↔ LogEvent.setup n ∈ h) ∧
    (∀ n, LogEvent.setup n ∈ h → (logRun h).1.level n = threshold h) ∧ ∀ n, handlerCount (logRun h).1 n = setups h n := by
  induction h using List.reverseRecOn with
  | nil => simp [logRun, LogState.init, threshold, setups, handlerCount]
  | append_singleton h e ih =>
    obtain ⟨h1, h2, h3, h4⟩ := ih
    rw [logRun_snoc, threshold_snoc]
    have hlev : ∀ v : ℤ, (setLoggerLevel v (logRun h).1).logLevel = (thresholdOf v).getD (threshold h) := by
      intro v
      simp only [setLoggerLevel, thresholdOf, h1]
      split_ifs <;> rfl
    have key : ∀ v : ℤ, (∀ n, n ∈ (setLoggerLevel v (logRun h).1).registered ↔ LogEvent.setup n ∈ h) ∧
        (∀ n, LogEvent.setup n ∈ h → (setLoggerLevel v (logRun h).1).level n = (thresholdOf v).getD (threshold h)) ∧
        ∀ n, handlerCount (setLoggerLevel v (logRun h).1) n = setups h n := by
      intro v
      refine ⟨h2, fun n hn => ?_, h4⟩
      rw [← hlev v]
      simp [setLoggerLevel, (h2 n).2 hn]
    cases e with
    | setup m =>
      refine ⟨by simpa [logStep, setupLogger, asks] using h1, fun n => ?_, fun n hn => ?_, fun n => ?_⟩
      · simp only [logStep, setupLogger, List.mem_append, List.mem_singleton, LogEvent.setup.injEq]
        split_ifs with hm
        · rw [h2]; constructor
          · exact Or.inl
          · rintro (h' | rfl)
            · exact h'
            · exact (h2 _).1 hm
        · rw [List.mem_cons, h2]; tauto
      · simp only [logStep, setupLogger, asks, Option.getD_none]
        by_cases hnm : n = m
        · subst hnm; simpa using h1
        · rw [Function.update_of_ne hnm]
          refine h3 n ?_
          simpa [hnm] using hn
      · simp only [logStep, setupLogger, handlerCount]
        rw [sum_update _ (inits_nodup n)]
        have := h4 n
        simp only [handlerCount] at this
        rw [this]
        simp only [setups, List.countP_append, List.countP_singleton, List.mem_inits, decide_eq_true_eq]
    | setLevel v =>
      obtain ⟨k2, k3, k4⟩ := key v
      refine ⟨hlev v, fun n => ?_, fun n hn => ?_, fun n => ?_⟩
      · simpa [logStep] using k2 n
      · simpa [logStep, asks] using k3 n (by simpa using hn)
      · simpa [logStep, setups] using k4 n
    | construct v =>
      obtain ⟨k2, k3, k4⟩ := key v
      by_cases hv : v = 0
      · subst hv
        refine ⟨by simpa [logStep, asks] using h1, fun n => ?_, fun n hn => ?_, fun n => ?_⟩
        · simpa [logStep] using h2 n
        · simpa [logStep, asks] using h3 n (by simpa using hn)
        · simpa [logStep, setups] using h4 n
      · refine ⟨by simpa [logStep, asks, hv] using hlev v, fun n => ?_, fun n hn => ?_, fun n => ?_⟩
        · simpa [logStep, hv] using k2 n
        · simpa [logStep, asks, hv] using k3 n (by simpa using hn)
        · simpa [logStep, setups, hv] using k4 n
    | message m l t =>
      refine ⟨by simpa [logStep, asks] using h1, fun n => ?_, fun n hn => ?_, fun n => ?_⟩
      · simpa [logStep] using h2 n
      · simpa [logStep, asks] using h3 n (by simpa using hn)
      · simpa [logStep, setups] using h4 n

end C96

open C96

/-! ### the claims -/

/-- The console after any history is determined by the threshold last asked for: nothing is written but the messages at or above it, in order, each as often as its logger
and the loggers above it were set up. -/
theorem C96_console (h : List LogEvent) : transcript [] = [] ∧ ∀ e, transcript (h ++ [e]) = transcript h ++ shows h e := by
  refine ⟨rfl, fun e => ?_⟩
  obtain ⟨_, h2, h3, h4⟩ := inv h
  unfold transcript
  rw [logRun_snoc]
  cases e with
  | message n l t =>
    simp only [logStep, shows]
    by_cases hn : LogEvent.setup n ∈ h
    · simp [hn, h2 n, h3 n hn, h4 n]
    · simp [hn, h2 n]
  | _ => simp [logStep, shows]

/-- The condition under which the package sets up its loggers: each module is imported once, in whatever order, together with anything else. -/
def C96.ImportedOnce (h : List LogEvent) : Prop :=
  (∀ n, LogEvent.setup n ∈ h → n ∈ fossilLoggers) ∧ ∀ n, h.count (.setup n) ≤ 1

theorem C96.fossil_prefix_free {m n : LoggerName} (hm : m ∈ fossilLoggers) (hn : n ∈ fossilLoggers) (h : m <+: n) : m = n := by
  have hlen : ∀ k ∈ fossilLoggers, k.length = 2 := by decide
  exact h.eq_of_length (by rw [hlen m hm, hlen n hn])

theorem C96.setups_once {h : List LogEvent} (hi : ImportedOnce h) {n : LoggerName} (hn : LogEvent.setup n ∈ h) : setups h n = 1 := by
  have hc : setups h n = h.count (.setup n) := by
    unfold setups
    rw [List.count]
    refine List.countP_congr fun e he => ?_
    cases e with
    | setup m =>
      simp only [decide_eq_true_eq, beq_iff_eq, LogEvent.setup.injEq]
      constructor
      · exact fossil_prefix_free (hi.1 m he) (hi.1 n hn)
      · rintro rfl; exact List.prefix_refl _
    | _ => simp
  have h1 : 0 < h.count (.setup n) := List.count_pos_iff.2 hn
  have := hi.2 n
  omega

/-- With the package imported once, a message of an imported module is written exactly once if it is at or above the threshold, and not at all otherwise. -/
theorem C96_once (h : List LogEvent) (hi : ImportedOnce h) (n : LoggerName) (hn : LogEvent.setup n ∈ h) (l : ℕ) (t : String) :
    transcript (h ++ [.message n l t]) = transcript h ++ if threshold h ≤ l then [⟨n, l, t⟩] else [] := by
  rw [(C96_console h).2]
  simp only [shows, hn, true_and, setups_once hi hn]
  split_ifs <;> simp

theorem C96.threshold_mem (h : List LogEvent) : threshold h = 10 ∨ threshold h = 20 ∨ threshold h = 30 := by
  induction h using List.reverseRecOn with
  | nil => simp [threshold]
  | append_singleton h e ih =>
    rw [threshold_snoc]
    cases e with
    | setLevel v => simp only [asks, thresholdOf]; split_ifs <;> simp_all
    | construct v => simp only [asks, thresholdOf]; split_ifs <;> simp_all
    | _ => simpa [asks] using ih

/-- Warnings ("Verification timed out", "Out of iterations") cannot be silenced: whatever verbosities were asked for before, they are written. -/
theorem C96_warnings (h : List LogEvent) (n : LoggerName) (hn : LogEvent.setup n ∈ h) (l : ℕ) (hl : 30 ≤ l) (t : String) :
    ∃ k, 0 < k ∧ transcript (h ++ [.message n l t]) = transcript h ++ List.replicate k ⟨n, l, t⟩ := by
  refine ⟨setups h n, ?_, ?_⟩
  · unfold setups
    rw [List.countP_pos_iff]
    exact ⟨_, hn, by simp⟩
  · rw [(C96_console h).2]
    have : threshold h ≤ l := by rcases threshold_mem h with h | h | h <;> omega
    simp [shows, hn, this]

/-- A process in which no verbosity 1 or 2 was asked for shows warnings and worse only. -/
theorem C96_silent (h : List LogEvent) (hq : ∀ e ∈ h, asks e = none ∨ asks e = some 30) : ∀ r ∈ transcript h, 30 ≤ r.level := by
  have : threshold h = 30 ∧ ∀ r ∈ transcript h, 30 ≤ r.level := by
    induction h using List.reverseRecOn with
    | nil => simp [threshold, (C96_console []).1]
    | append_singleton h e ih =>
      obtain ⟨i1, i2⟩ := ih fun e' he' => hq e' (by simp [he'])
      refine ⟨?_, fun r hr => ?_⟩
      · rw [threshold_snoc]
        rcases hq e (by simp) with he | he <;> simp [he, i1]
      · rw [(C96_console h).2, List.mem_append] at hr
        rcases hr with hr | hr
        · exact i2 r hr
        · cases e with
          | message n l t =>
            simp only [shows, i1] at hr
            split_ifs at hr with hc
            · rw [List.mem_replicate] at hr
              rw [hr.2]; exact hc.2
            · simp at hr
          | _ => simp [shows] at hr
  exact this.2

/-- `VERBOSE = 0` does not make a run silent: the verbosity of an earlier run with `VERBOSE` 1 or 2 remains, however many silent runs and whatever messages and imports
follow. -/
theorem C96_not_reset (h g : List LogEvent) (v : ℤ) (hv : v = 1 ∨ v = 2)
    (hg : ∀ e ∈ g, e = .construct 0 ∨ (∃ n, e = .setup n) ∨ ∃ n l t, e = .message n l t) :
    threshold (h ++ [.construct v] ++ g) = if v = 1 then 20 else 10 := by
  induction g using List.reverseRecOn with
  | nil =>
    rw [List.append_nil, threshold_snoc]
    rcases hv with rfl | rfl <;> simp [asks, thresholdOf]
  | append_singleton g e ih =>
    rw [← List.append_assoc, threshold_snoc]
    have := ih fun e' he' => hg e' (by simp [he'])
    rcases hg e (by simp) with rfl | ⟨n, rfl⟩ | ⟨n, l, t, rfl⟩ <;> simpa [asks] using this

/-- From the command line, the file's `VERBOSE` wins over `-v` if it is 1 or 2, and otherwise `-v` decides; the messages of the constructor itself are shown according
to `-v` alone. -/
theorem C96_command_line (imports : List LoggerName) (hi : imports.Nodup) (hsub : ∀ n ∈ imports, n ∈ fossilLoggers) (v : ℤ) (hv : v = 0 ∨ v = 1 ∨ v = 2)
    (initMsgs : List (LoggerName × ℕ × String)) (hm : ∀ m ∈ initMsgs, m.1 ∈ imports) (verbose : ℤ) :
    let msgs := initMsgs.map fun m => LogEvent.message m.1 m.2.1 m.2.2
    let show0 := if v = 0 then 30 else if v = 1 then 20 else 10
    transcript (cliLog imports v msgs verbose) = (initMsgs.filter fun m => show0 ≤ m.2.1).map (fun m => ⟨m.1, m.2.1, m.2.2⟩) ∧
    threshold (cliLog imports v msgs verbose) = (if verbose = 1 then 20 else if verbose = 2 then 10 else show0) := by
  intro msgs show0
  set base := imports.map LogEvent.setup ++ [LogEvent.setLevel v] with hbase
  have hb : threshold base = show0 := by
    rw [hbase, threshold_snoc]
    rcases hv with rfl | rfl | rfl <;> simp [asks, thresholdOf, show0]
  have hsetupT : ∀ l : List LoggerName, transcript (l.map LogEvent.setup) = [] := by
    intro l
    induction l using List.reverseRecOn with
    | nil => exact (C96_console []).1
    | append_singleton l a ih => rw [List.map_append, List.map_singleton, (C96_console _).2, ih]; rfl
  have hT : transcript base = [] := by rw [hbase, (C96_console _).2, hsetupT]; rfl
  have hcount : ∀ n, (imports.map LogEvent.setup).count (LogEvent.setup n) ≤ 1 := by
    intro n
    exact List.nodup_iff_count_le_one.1 (hi.map fun a b hab => by simpa using hab) _
  have hmain : ∀ ms : List (LoggerName × ℕ × String), (∀ m ∈ ms, m.1 ∈ imports) →
      let evs := ms.map fun m => LogEvent.message m.1 m.2.1 m.2.2
      threshold (base ++ evs) = show0 ∧ transcript (base ++ evs) = (ms.filter fun m => show0 ≤ m.2.1).map (fun m => ⟨m.1, m.2.1, m.2.2⟩) := by
    intro ms
    induction ms using List.reverseRecOn with
    | nil => intro _; simp [hb, hT]
    | append_singleton ms a ih =>
      intro hms
      obtain ⟨i1, i2⟩ := ih fun m hm => hms m (by simp [hm])
      have ha := hms a (by simp)
      simp only [List.map_append, List.map_singleton, ← List.append_assoc]
      refine ⟨by rw [threshold_snoc, i1]; rfl, ?_⟩
      rw [C96_once _ _ a.1 _ a.2.1 a.2.2, i1, i2, List.filter_append, List.map_append]
      · by_cases hc : show0 ≤ a.2.1 <;> simp [hc]
      · refine ⟨fun n hn => ?_, fun n => ?_⟩
        · simp [hbase] at hn; exact hsub n hn
        · have h0 : (ms.map fun m => LogEvent.message m.1 m.2.1 m.2.2).count (LogEvent.setup n) = 0 :=
            List.count_eq_zero.2 (by simp)
          rw [List.count_append, h0, hbase, List.count_append]
          have h00 : [LogEvent.setLevel v].count (LogEvent.setup n) = 0 := List.count_eq_zero.2 (by simp)
          have := hcount n
          omega
      · simp [hbase, ha]
  obtain ⟨m1, m2⟩ := hmain initMsgs hm
  have hcli : cliLog imports v msgs verbose = base ++ msgs ++ [.construct verbose] := by simp [cliLog, hbase, msgs]
  rw [hcli]
  refine ⟨by rw [(C96_console _).2, m2]; simp [shows], ?_⟩
  rw [threshold_snoc, m1]
  simp only [asks, thresholdOf]
  by_cases h0 : verbose = 0
  · subst h0; simp
  · by_cases h1 : verbose = 1
    · simp [h1]
    · by_cases h2 : verbose = 2 <;> simp [h0, h1, h2]

/-- A logger that is set up twice writes everything twice. -/
theorem C96_twice (h : List LogEvent) (hi : ImportedOnce h) (n : LoggerName) (hn : LogEvent.setup n ∈ h) (l : ℕ) (hl : threshold h ≤ l) (t : String) :
    transcript (h ++ [.setup n] ++ [.message n l t]) = transcript h ++ [⟨n, l, t⟩, ⟨n, l, t⟩] := by
  rw [(C96_console _).2, (C96_console _).2]
  have hs : setups (h ++ [LogEvent.setup n]) n = 2 := by
    have := setups_once hi hn
    unfold setups at this ⊢
    rw [List.countP_append, this]; simp
  have ht : threshold (h ++ [LogEvent.setup n]) = threshold h := by rw [threshold_snoc]; rfl
  simp [shows, hs, ht, hl]

/-! ### concrete cases -/

/-- Importing the six modules meets `ImportedOnce`. -/
theorem C96.imported_fossil : ImportedOnce (fossilLoggers.map LogEvent.setup) := by
  refine ⟨fun n hn => by simpa using hn, fun n => ?_⟩
  have hnd : fossilLoggers.Nodup := by decide
  exact List.nodup_iff_count_le_one.1 (hnd.map fun a b hab => by simpa using hab) _

/-- A verbose run followed by a run with `VERBOSE = 0`: the second run still writes its debug messages. -/
example : transcript (fossilLoggers.map LogEvent.setup ++ [.message ["fossil", "cegis"] 10 "Domains"] ++ [.construct 2] ++ [.construct 0] ++
      [.message ["fossil", "cegis"] 10 "Learner"]) = [⟨["fossil", "cegis"], 10, "Learner"⟩] := by decide

/-- The hypotheses of `C96_silent` hold for a run with `VERBOSE = 0` and one with a value that is no verbosity; the warning is written, the information not. -/
example : (∀ e ∈ fossilLoggers.map LogEvent.setup ++ [.construct 0, .construct 7, .message ["fossil", "cegis"] 20 "Iteration: 1",
      .message ["fossil", "cegis"] 30 "Out of iterations"], asks e = none ∨ asks e = some 30) ∧
    transcript (fossilLoggers.map LogEvent.setup ++ [.construct 0, .construct 7, .message ["fossil", "cegis"] 20 "Iteration: 1",
      .message ["fossil", "cegis"] 30 "Out of iterations"]) = [⟨["fossil", "cegis"], 30, "Out of iterations"⟩] := by decide

/-- `-v 1` with a file that sets `VERBOSE: 2`: the constructor's debug message is not shown, the threshold is then that of debugging. -/
example : transcript (cliLog fossilLoggers 1 [.message ["fossil", "cegis"] 10 "Domains", .message ["fossil", "control"] 20 "Controller"] 2) =
      [⟨["fossil", "control"], 20, "Controller"⟩] ∧
    threshold (cliLog fossilLoggers 1 [.message ["fossil", "cegis"] 10 "Domains"] 2) = 10 := by decide

/-- `C96_once`, `C96_warnings` and `C96_twice` at the imported package: a warning is written once, and twice after a second set-up. -/
example : transcript (fossilLoggers.map LogEvent.setup ++ [.message ["fossil", "cegis"] 30 "Out of iterations"]) = [⟨["fossil", "cegis"], 30, "Out of iterations"⟩] ∧
    transcript (fossilLoggers.map LogEvent.setup ++ [.setup ["fossil", "cegis"]] ++ [.message ["fossil", "cegis"] 30 "Out of iterations"]) =
      [⟨["fossil", "cegis"], 30, "Out of iterations"⟩, ⟨["fossil", "cegis"], 30, "Out of iterations"⟩] := by
  refine ⟨?_, ?_⟩
  · rw [C96_once _ imported_fossil _ (by simp [fossilLoggers])]; decide
  · rw [C96_twice _ imported_fossil _ (by simp [fossilLoggers]) _ (by decide)]; decide

/-- `C96_warnings` and `C96_not_reset` after a run with `VERBOSE = 2` and two with `VERBOSE = 0`. -/
example : (∃ k, 0 < k ∧ transcript (fossilLoggers.map LogEvent.setup ++ [.construct 2] ++ [.construct 0, .construct 0] ++ [.message ["fossil", "cegis"] 30 "Out of iterations"]) =
      transcript (fossilLoggers.map LogEvent.setup ++ [.construct 2] ++ [.construct 0, .construct 0]) ++ List.replicate k ⟨["fossil", "cegis"], 30, "Out of iterations"⟩) ∧
    threshold (fossilLoggers.map LogEvent.setup ++ [.construct 2] ++ [.construct 0, .construct 0]) = 10 :=
  ⟨C96_warnings _ _ (by simp [fossilLoggers]) _ le_rfl _, C96_not_reset _ _ 2 (.inr rfl) (by simp)⟩

end Fossil
