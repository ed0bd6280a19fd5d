/-
C40: what the timers report, for every history of calls.
-/
import Verif.Timer
import Mathlib.Tactic.Linarith
import Mathlib.Tactic.NormNum

namespace Fossil

namespace Spec
/-- Durations of the calls that returned. -/
def durations : List TCall → List ℚ
  | [] => []
  | .returned a b :: cs => (b - a) :: durations cs
  | .raised _ :: cs => durations cs

/-- The clock is positive and does not run backwards during a call. -/
def ClockOk (cs : List TCall) : Prop := ∀ a b, TCall.returned a b ∈ cs → 0 < a ∧ a ≤ b
end Spec
open Spec

theorem Timer.run_calls : ∀ (cs : List TCall) (t : Timer), ClockOk cs →
    ∃ t', t.run (callEvents cs) = .ok t' ∧ t'.sum = t.sum + (durations cs).sum ∧ t'.n = t.n + (durations cs).length ∧
      t'.min ≤ t.min ∧ t.max ≤ t'.max ∧ (∀ d ∈ durations cs, t'.min ≤ d ∧ d ≤ t'.max) ∧
      (t'.min = t.min ∨ t'.min ∈ durations cs) ∧ (t'.max = t.max ∨ t'.max ∈ durations cs) := by
  intro cs
  induction cs with
  | nil => intro t _; exact ⟨t, by simp [callEvents, Timer.run, durations]⟩
  | cons c cs ih =>
    intro t hc
    have hc' : ClockOk cs := fun a b h => hc a b (by simp [h])
    cases c with
    | returned a b =>
      obtain ⟨h0, hab⟩ := hc a b (by simp)
      obtain ⟨t', h1, h2, h3, h4, h5, h6, h7, h8⟩ :=
        ih ⟨Min.min t.min (b - a), Max.max t.max (b - a), t.n + 1, t.sum + (b - a), 0⟩ hc'
      simp only at h2 h3 h4 h5 h7 h8
      refine ⟨t', ?_, ?_, ?_, h4.trans (min_le_left _ _), (le_max_left _ _).trans h5, ?_, ?_, ?_⟩
      · simp only [callEvents, Timer.run, Timer.step, hab, h0, and_self, if_true]
        exact h1
      · simp only [durations, List.sum_cons]; linarith
      · simp only [durations, List.length_cons]; omega
      · intro d hd
        simp only [durations, List.mem_cons] at hd
        rcases hd with rfl | hd
        · exact ⟨h4.trans (min_le_right _ _), (le_max_right _ _).trans h5⟩
        · exact h6 d hd
      · simp only [durations, List.mem_cons]
        rcases h7 with h | h
        · rcases min_choice t.min (b - a) with hm | hm
          · exact Or.inl (h.trans hm)
          · exact Or.inr (Or.inl (h.trans hm))
        · exact Or.inr (Or.inr h)
      · simp only [durations, List.mem_cons]
        rcases h8 with h | h
        · rcases max_choice t.max (b - a) with hm | hm
          · exact Or.inl (h.trans hm)
          · exact Or.inr (Or.inl (h.trans hm))
        · exact Or.inr (Or.inr h)
    | raised a =>
      obtain ⟨t', h1, h2, h3, h4, h5, h6, h7, h8⟩ := ih { t with start := a } hc'
      exact ⟨t', by simpa [callEvents, Timer.run, Timer.step] using h1, h2, h3, h4, h5, h6, h7, h8⟩

/-- **C40.** Whatever happened before, after a reset and any sequence of (non-nested) calls the timer reports the total duration of exactly
the calls that returned, their number, and bounds on their durations of which the maximum, and the minimum (if below `2^63` seconds),
are attained. No call makes it raise. -/
theorem C40_timer_totals (t₀ : Timer) (cs : List TCall) (hc : ClockOk cs) :
    ∃ t, t₀.run (.reset :: callEvents cs) = .ok t ∧ t.sum = (durations cs).sum ∧ t.n = (durations cs).length ∧
      (∀ d ∈ durations cs, t.min ≤ d ∧ d ≤ t.max) ∧ (durations cs ≠ [] → t.max ∈ durations cs) ∧
      ((∃ d ∈ durations cs, d < 2 ^ 63) → t.min ∈ durations cs) := by
  obtain ⟨t, h1, h2, h3, h4, h5, h6, h7, h8⟩ := Timer.run_calls cs Timer.fresh hc
  refine ⟨t, by simpa [Timer.run, Timer.step] using h1, by simpa [Timer.fresh] using h2, by simpa [Timer.fresh] using h3, h6, ?_, ?_⟩
  · intro hne
    rcases h8 with h | h
    · obtain ⟨d, ds, hd⟩ : ∃ d ds, durations cs = d :: ds := by cases h' : durations cs <;> simp_all
      have hd' : d ∈ durations cs := by simp [hd]
      have h0 : 0 ≤ d := by
        clear h h7 h6 h5 h4 h3 h2 h1 hne hd
        induction cs with
        | nil => simp [durations] at hd'
        | cons c cs ih =>
          cases c with
          | returned a b =>
            simp only [durations, List.mem_cons] at hd'
            rcases hd' with rfl | hd'
            · have := (hc a b (by simp)).2; linarith
            · exact ih (fun a b h => hc a b (by simp [h])) hd'
          | raised a => exact ih (fun a b h => hc a b (by simp [h])) hd'
      have h1' := (h6 d hd').2
      rw [h] at h1'
      have : d = 0 := le_antisymm (by simpa [Timer.fresh] using h1') h0
      rw [h, show Timer.fresh.max = 0 from rfl, ← this]
      exact hd'
    · exact h
  · rintro ⟨d, hd, hlt⟩
    rcases h7 with h | h
    · have := (h6 d hd).1
      rw [h, show Timer.fresh.min = 2 ^ 63 from rfl] at this
      linarith
    · exact h

/-- **C40.** The average is the mean duration if the calls took any measurable time at all, 0 if there was no call; if calls returned but
the clock did not advance during any of them, asking for it raises. -/
theorem C40_average (cs : List TCall) (hc : ClockOk cs) (t : Timer) (ht : Timer.fresh.run (callEvents cs) = .ok t) :
    (durations cs = [] → t.avg = .ok 0) ∧
    (0 < (durations cs).sum → t.avg = .ok ((durations cs).sum / (durations cs).length)) ∧
    (durations cs ≠ [] → (durations cs).sum = 0 → t.avg = .error .assertionError) := by
  obtain ⟨t', h1, h2, h3, -⟩ := Timer.run_calls cs Timer.fresh hc
  rw [ht] at h1
  cases h1
  have h2 : t.sum = (durations cs).sum := by simpa [Timer.fresh] using h2
  have h3 : t.n = (durations cs).length := by simpa [Timer.fresh] using h3
  refine ⟨fun h => ?_, fun h => ?_, fun hne h => ?_⟩
  · simp [Timer.avg, h3, h]
  · have : t.n ≠ 0 := by
      rw [h3]
      intro h0
      rw [List.length_eq_zero_iff.1 h0] at h
      simp at h
    rw [Timer.avg, if_neg this, h2, h3, if_pos h]
  · have : t.n ≠ 0 := by rw [h3]; simpa using hne
    rw [Timer.avg, if_neg this, h2, h]
    simp

theorem Timer.run_append (t : Timer) (es fs : List TEvent) : t.run (es ++ fs) =
    match t.run es with
    | .error e => .error e
    | .ok t' => t'.run fs := by
  induction es generalizing t with
  | nil => rfl
  | cons e es ih =>
    simp only [List.cons_append, Timer.run]
    cases t.step e with
    | error _ => rfl
    | ok t' => exact ih t'

/-- **C40, misuse.** At any point of any history, `stop` is accepted exactly if the last thing that happened was a `start` (at a positive
time not later than now); otherwise it raises. -/
theorem C40_stop_needs_start (es : List TEvent) (t : Timer) (ht : Timer.fresh.run es = .ok t) (now : ℚ) :
    (∃ t', t.step (.stop now) = .ok t') ↔ ∃ a, es.getLast? = some (.start a) ∧ 0 < a ∧ a ≤ now := by
  have key : (es.getLast? = none ∧ t.start = 0) ∨ (∃ a, es.getLast? = some (.start a) ∧ t.start = a) ∨
      (∃ e, es.getLast? = some e ∧ (∀ a, e ≠ .start a) ∧ t.start = 0) := by
    rcases List.eq_nil_or_concat es with rfl | ⟨l, e, rfl⟩
    · left; simp only [Timer.run] at ht; cases ht; exact ⟨rfl, rfl⟩
    · right
      rw [List.concat_eq_append, Timer.run_append] at ht
      rw [List.concat_eq_append, List.getLast?_append]
      cases hl : Timer.fresh.run l with
      | error _ => rw [hl] at ht; cases ht
      | ok t1 =>
        rw [hl] at ht
        cases e with
        | start a => left; simp only [Timer.run, Timer.step] at ht; cases ht; exact ⟨a, rfl, rfl⟩
        | stop b =>
          right
          simp only [Timer.run, Timer.step] at ht
          split at ht
          · cases ht
          · rename_i t2 h2
            split_ifs at h2
            cases h2; cases ht
            exact ⟨_, rfl, by simp, rfl⟩
        | reset => right; simp only [Timer.run, Timer.step] at ht; cases ht; exact ⟨_, rfl, by simp, rfl⟩
  have hs : (∃ t', t.step (.stop now) = .ok t') ↔ t.start ≤ now ∧ 0 < t.start := by
    simp only [Timer.step]
    split_ifs with h
    · simp [h]
    · simp [h]
  rw [hs]
  rcases key with ⟨h1, h2⟩ | ⟨a, h1, h2⟩ | ⟨e, h1, h2, h3⟩
  · simp [h1, h2]
  · rw [h1, h2]
    constructor
    · rintro ⟨x, y⟩; exact ⟨a, rfl, y, x⟩
    · rintro ⟨b, hb, y, x⟩; cases hb; exact ⟨x, y⟩
  · rw [h1, h3]
    constructor
    · rintro ⟨_, x⟩; exact absurd x (lt_irrefl 0)
    · rintro ⟨b, hb, _⟩; exact absurd (Option.some.inj hb) (h2 b)

/-- **C40, nesting.** A call of a function whose body completes a call of a function with the same timer raises on exit, whatever else the
body does before; if the last inner call raised (and the body caught it), the outer call is charged only from that inner
call's start. -/
theorem C40_nested_calls (t₀ : Timer) (a b : ℚ) (inner : List TCall) (hc : ClockOk inner) :
    (∀ x y, inner.getLast? = some (.returned x y) → t₀.run (nestedEvents a b inner) = .error .assertionError) ∧
    (∀ x, inner.getLast? = some (.raised x) → 0 < x → x ≤ b →
      ∃ t, t₀.run (nestedEvents a b inner) = .ok t ∧ t.sum = t₀.sum + (durations inner).sum + (b - x)) := by
  have hrun : ∀ (l : List TCall), callEvents l = l.flatMap (fun c => callEvents [c]) := by
    intro l
    induction l with
    | nil => rfl
    | cons c l ih => cases c <;> simp [callEvents, ih]
  have happ : ∀ (l m : List TCall), callEvents (l ++ m) = callEvents l ++ callEvents m := by
    intro l m; rw [hrun (l ++ m), hrun l, hrun m, List.flatMap_append]
  have hdur : ∀ (l : List TCall) (x : ℚ), durations (l ++ [.raised x]) = durations l := by
    intro l x
    induction l with
    | nil => rfl
    | cons c l ih => cases c <;> simp [durations, ih]
  constructor
  · intro x y h
    obtain ⟨l, rfl⟩ := List.getLast?_eq_some_iff.1 h
    obtain ⟨t1, h1, -⟩ := Timer.run_calls l { t₀ with start := a } (fun p q hp => hc p q (by simp [hp]))
    obtain ⟨hx, hxy⟩ := hc x y (by simp)
    have e : nestedEvents a b (l ++ [.returned x y]) = .start a :: (callEvents l ++ [.start x, .stop y, .stop b]) := by
      simp [nestedEvents, happ, callEvents]
    rw [e]
    simp only [Timer.run, Timer.step]
    rw [Timer.run_append, h1]
    simp [Timer.run, Timer.step, hx, hxy]
  · intro x h h0 hxb
    obtain ⟨l, rfl⟩ := List.getLast?_eq_some_iff.1 h
    obtain ⟨t1, h1, h2, -⟩ := Timer.run_calls l { t₀ with start := a } (fun p q hp => hc p q (by simp [hp]))
    have e : nestedEvents a b (l ++ [.raised x]) = .start a :: (callEvents l ++ [.start x, .stop b]) := by
      simp [nestedEvents, happ, callEvents]
    rw [e]
    simp only [Timer.run, Timer.step]
    rw [Timer.run_append, h1]
    simp only [Timer.run, Timer.step, hxb, h0, and_self, if_true]
    refine ⟨_, rfl, ?_⟩
    simp only [h2, hdur]

/-- Three calls, one of which raises. -/
example : ClockOk [.returned 1 3, .raised 4, .returned 10 15] ∧ durations [.returned 1 3, .raised 4, .returned 10 15] = [2, 5] ∧
    Timer.fresh.run (callEvents [.returned 1 3, .raised 4, .returned 10 15]) = .ok ⟨2, 5, 2, 7, 0⟩ := by
  refine ⟨?_, by norm_num [durations], by decide +kernel⟩
  intro a b h
  simp at h
  rcases h with ⟨rfl, rfl⟩ | ⟨rfl, rfl⟩ <;> norm_num

end Fossil
