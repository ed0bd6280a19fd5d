/-
C71: the results table.
-/
import Verif.Table
import Verif.Props.C41_Csv
import Verif.Props.C17_Translator

namespace Fossil
open Spec

namespace Spec

/-- Certificates with two functions. -/
def twoFunctions (c : CertType) : Prop := c = .STABLESAFE ∨ c = .RAR

/-- Runs of the same experiment: same benchmark text, sets, model, dimensions, property, network sizes and activation names (of the second network too,
where there is one). Seeds, times, solver, data and all other settings do not matter. -/
structure SameExperiment (i j : RunInfo) : Prop where
  latex : i.latex = j.latex
  domains : i.domains = j.domains
  model : i.model = j.model
  nVars : i.nVars = j.nVars
  nControls : (i.ctrLayer.bind List.getLast?).getD 0 = (j.ctrLayer.bind List.getLast?).getD 0
  property : samePurpose i.cert j.cert
  neurons : i.neurons = j.neurons
  acts : activationNames i.acts = activationNames j.acts
  alt : twoFunctions i.cert → i.altNeurons = j.altNeurons ∧ activationNames i.altActs = activationNames j.altActs

/-- `a` shows least, mean and greatest of the numbers, rounded to two decimals. -/
def Shows (a : Agg) (l : List ℚ) : Prop :=
  ∃ lo mean hi : ℚ, lo ∈ l ∧ hi ∈ l ∧ (∀ x ∈ l, lo ≤ x ∧ x ≤ hi) ∧ mean * l.length = l.sum ∧
    |a.min - lo| ≤ 1/200 ∧ |a.mean - mean| ≤ 1/200 ∧ |a.max - hi| ≤ 1/200 ∧ a.min ≤ a.mean ∧ a.mean ≤ a.max

/-- A line of the table shows a class of runs: its columns are those of each run, the times are least, mean and greatest, and the percentage `p` is the
greatest with `p/100 ≤ succeeded/runs`. -/
structure LineShows (c : List RunInfo) (line : TableLine) : Prop where
  columns : ∀ i ∈ c, line.ns = .int i.nVars ∧ line.nu = .int ((i.ctrLayer.bind List.getLast?).getD 0) ∧
    (∃ s, propertyName i.cert = .ok s ∧ line.cert = .text s) ∧ line.neurons.1 = .nats i.neurons ∧ (∃ l, activationNames i.acts = .ok l ∧ line.acts.1 = .texts l) ∧
    (twoFunctions i.cert → line.neurons.2 = .nats i.altNeurons ∧ ∃ l, activationNames i.altActs = .ok l ∧ line.acts.2 = .texts l) ∧
    (¬ twoFunctions i.cert → line.neurons.2 = .none ∧ line.acts.2 = .none)
  total : Shows line.total (c.map (·.total))
  learner : Shows line.learner (c.map fun i => i.times.headD 0)
  success : ∀ p : ℤ, p ≤ line.success ↔ p * c.length ≤ 100 * (c.filter (·.res)).length

end Spec

/-! ### grouping -/

theorem set_split {α : Type _} {κ : Type} [DecidableEq κ] : ∀ {d : Dict κ α} {k : κ} {old v : α}, Dict.get? d k = some old →
    ∃ a b, d = a ++ (k, old) :: b ∧ k ∉ Dict.keys a ∧ Dict.set d k v = a ++ (k, v) :: b := by
  intro d
  induction d with
  | nil => intro k old v h; cases h
  | cons e d ih =>
    intro k old v h
    obtain ⟨k', v'⟩ := e
    rw [Dict.get?_cons] at h
    unfold Dict.set
    by_cases hk : k' = k
    · subst hk
      rw [if_pos rfl] at h
      cases h
      exact ⟨[], d, rfl, by simp [Dict.keys], by rw [if_pos rfl]; rfl⟩
    · rw [if_neg hk] at h ⊢
      obtain ⟨a, b, h1, h2, h3⟩ := ih (v := v) h
      exact ⟨(k', v') :: a, b, by rw [h1]; rfl, by simp only [Dict.keys, List.map_cons, List.mem_cons, not_or] at h2 ⊢; exact ⟨Ne.symm hk, h2⟩,
        by rw [h3]; rfl⟩

theorem set_new {α : Type _} {κ : Type} [DecidableEq κ] : ∀ {d : Dict κ α} {k : κ} {v : α}, Dict.get? d k = none → Dict.set d k v = d ++ [(k, v)] := by
  intro d
  induction d with
  | nil => intro k v _; rfl
  | cons e d ih =>
    intro k v h
    obtain ⟨k', v'⟩ := e
    rw [Dict.get?_cons] at h
    unfold Dict.set
    by_cases hk : k' = k
    · rw [if_pos hk] at h; cases h
    · rw [if_neg hk] at h ⊢; rw [ih h]; rfl

/-- Grouping by a key, for any type of rows. -/
def addOn {α κ : Type} [DecidableEq κ] (key : α → κ) (d : Dict κ (List α)) (r : α) : Dict κ (List α) :=
  Dict.set d (key r) ((Dict.get? d (key r)).getD [] ++ [r])

def groupOn {α κ : Type} [DecidableEq κ] (key : α → κ) (rows : List α) : Dict κ (List α) := rows.foldl (addOn key) []

theorem groupRuns_eq (rows : List RunData) : groupRuns rows = groupOn RunData.key rows := rfl

theorem set_map {κ α β : Type} [DecidableEq κ] (f : α → β) : ∀ (d : Dict κ α) (k : κ) (v : α),
    (Dict.set d k v).map (fun e => (e.1, f e.2)) = Dict.set (d.map fun e => (e.1, f e.2)) k (f v) := by
  intro d
  induction d with
  | nil => intro k v; rfl
  | cons e d ih =>
    intro k v
    obtain ⟨k', v'⟩ := e
    unfold Dict.set
    by_cases h : k' = k
    · rw [if_pos h]; simp [Dict.set, h]
    · rw [if_neg h]; simp [h, ih]

theorem groupOn_map {α β κ : Type} [DecidableEq κ] (f : α → β) (key : β → κ) (rows : List α) :
    groupOn key (rows.map f) = (groupOn (key ∘ f) rows).map fun e => (e.1, e.2.map f) := by
  unfold groupOn
  have : ∀ (rows : List α) (d : Dict κ (List α)), (rows.map f).foldl (addOn key) (d.map fun e => (e.1, e.2.map f)) =
      (rows.foldl (addOn (key ∘ f)) d).map fun e => (e.1, e.2.map f) := by
    intro rows
    induction rows with
    | nil => intro d; rfl
    | cons r rows ih =>
      intro d
      simp only [List.map_cons, List.foldl_cons]
      rw [← ih]
      congr 1
      unfold addOn
      rw [set_map (List.map f)]
      congr 1
      have := Dict.get?_mapVals (List.map f) d ((key ∘ f) r)
      unfold Dict.mapVals at this
      simp only [Function.comp_apply] at this ⊢
      rw [this]
      cases Dict.get? d (key (f r)) <;> simp
  simpa using this rows []

/-- What the groups are. -/
structure Groups {α κ : Type} [DecidableEq κ] (key : α → κ) (rows : List α) (d : Dict κ (List α)) : Prop where
  nodup : (Dict.keys d).Nodup
  same : ∀ e ∈ d, e.2 ≠ [] ∧ ∀ r ∈ e.2, key r = e.1
  perm : (d.map Prod.snd).flatten.Perm rows
  order : ∀ e ∈ d, e.2.Sublist rows
  first : (d.filterMap fun e => e.2.head?).Sublist rows

theorem groups_add {α κ : Type} [DecidableEq κ] {key : α → κ} {rows : List α} {d : Dict κ (List α)} (h : Groups key rows d) (r : α) :
    Groups key (rows ++ [r]) (addOn key d r) := by
  unfold addOn
  cases hg : Dict.get? d (key r) with
  | none =>
    simp only [Option.getD_none, List.nil_append]
    rw [set_new hg]
    have hk := Dict.get?_eq_none_iff.1 hg
    refine ⟨?_, ?_, ?_, ?_, ?_⟩
    · simp only [Dict.keys, List.map_append, List.map_cons, List.map_nil]
      refine List.Nodup.append h.nodup (by simp) ?_
      intro x hx hx'
      simp only [List.mem_singleton] at hx'
      exact hk (hx' ▸ hx)
    · intro e he
      rcases List.mem_append.1 he with he | he
      · exact h.same e he
      · simp only [List.mem_singleton] at he
        subst he
        simp
    · simp only [List.map_append, List.map_cons, List.map_nil, List.flatten_append, List.flatten_cons, List.flatten_nil, List.append_nil]
      exact h.perm.append_right _
    · intro e he
      rcases List.mem_append.1 he with he | he
      · exact (h.order e he).trans (List.sublist_append_left _ _)
      · simp only [List.mem_singleton] at he
        subst he
        exact List.sublist_append_right _ _
    · rw [List.filterMap_append]
      exact h.first.append (by simp)
  | some old =>
    simp only [Option.getD_some]
    obtain ⟨a, b, h1, h2, h3⟩ := set_split (v := old ++ [r]) hg
    rw [h3]
    have hold := h.same (key r, old) (by rw [h1]; simp)
    refine ⟨?_, ?_, ?_, ?_, ?_⟩
    · have := h.nodup
      rw [h1] at this
      simpa [Dict.keys] using this
    · intro e he
      rcases List.mem_append.1 he with he | he
      · exact h.same e (by rw [h1]; exact List.mem_append.2 (Or.inl he))
      · rcases List.mem_cons.1 he with rfl | he
        · refine ⟨by simp, fun x hx => ?_⟩
          rcases List.mem_append.1 hx with hx | hx
          · exact hold.2 x hx
          · simp only [List.mem_singleton] at hx; rw [hx]
        · exact h.same e (by rw [h1]; exact List.mem_append.2 (Or.inr (List.mem_cons_of_mem _ he)))
    · have hp := h.perm
      rw [h1] at hp
      simp only [List.map_append, List.map_cons, List.flatten_append, List.flatten_cons] at hp ⊢
      refine List.Perm.trans ?_ (hp.append_right [r])
      simp only [List.append_assoc]
      refine List.Perm.append_left _ (List.Perm.append_left _ ?_)
      exact List.perm_append_comm
    · intro e he
      rcases List.mem_append.1 he with he | he
      · exact (h.order e (by rw [h1]; exact List.mem_append.2 (Or.inl he))).trans (List.sublist_append_left _ _)
      · rcases List.mem_cons.1 he with rfl | he
        · exact (h.order (key r, old) (by rw [h1]; simp)).append (List.Sublist.refl _)
        · exact (h.order e (by rw [h1]; exact List.mem_append.2 (Or.inr (List.mem_cons_of_mem _ he)))).trans (List.sublist_append_left _ _)
    · have hf := h.first
      rw [h1] at hf
      have hh : (old ++ [r]).head? = old.head? := by
        cases old with
        | nil => exact absurd rfl hold.1
        | cons x l => rfl
      simp only [List.filterMap_append, List.filterMap_cons, hh] at hf ⊢
      exact hf.trans (List.sublist_append_left _ _)

theorem groupOn_groups {α κ : Type} [DecidableEq κ] (key : α → κ) (rows : List α) : Groups key rows (groupOn key rows) := by
  unfold groupOn
  have : ∀ (rest done : List α) d, Groups key done d → Groups key (done ++ rest) (rest.foldl (addOn key) d) := by
    intro rest
    induction rest with
    | nil => intro done d h; simpa using h
    | cons r rest ih =>
      intro done d h
      have := ih (done ++ [r]) (addOn key d r) (groups_add h r)
      simpa using this
  simpa using this rows [] [] ⟨by simp [Dict.keys], by simp, by simp, by simp, by simp⟩

/-! ### numbers -/

theorem roundHalfEven_near (x : ℚ) : |(roundHalfEven x : ℚ) - x| ≤ 1/2 := by
  have h1 := Int.floor_le x
  have h2 := Int.lt_floor_add_one x
  unfold roundHalfEven
  simp only
  rw [abs_le]
  split_ifs <;> push_cast <;> constructor <;> linarith

theorem roundHalfEven_mono {x y : ℚ} (h : x ≤ y) : roundHalfEven x ≤ roundHalfEven y := by
  have hx := Int.floor_le x
  have hx' := Int.lt_floor_add_one x
  have hy := Int.floor_le y
  have hy' := Int.lt_floor_add_one y
  rcases (Int.floor_mono h).lt_or_eq with hlt | heq
  · have h1 : roundHalfEven x ≤ ⌊x⌋ + 1 := by unfold roundHalfEven; simp only; split_ifs <;> omega
    have h2 : ⌊y⌋ ≤ roundHalfEven y := by unfold roundHalfEven; simp only; split_ifs <;> omega
    omega
  · unfold roundHalfEven
    simp only [heq]
    split_ifs <;> first | omega | (exfalso; rw [heq] at *; linarith)

theorem npRound_close (x : ℚ) : |npRound 2 x - x| ≤ 1/200 := by
  have h := roundHalfEven_near (x * 10 ^ 2)
  unfold npRound
  rw [abs_le] at h ⊢
  obtain ⟨a, b⟩ := h
  constructor
  · have : (roundHalfEven (x * 10 ^ 2) : ℚ) / 10 ^ 2 - x = ((roundHalfEven (x * 10 ^ 2) : ℚ) - x * 10 ^ 2) / 100 := by ring
    rw [this]; linarith
  · have : (roundHalfEven (x * 10 ^ 2) : ℚ) / 10 ^ 2 - x = ((roundHalfEven (x * 10 ^ 2) : ℚ) - x * 10 ^ 2) / 100 := by ring
    rw [this]; linarith

theorem npRound_mono {x y : ℚ} (h : x ≤ y) : npRound 2 x ≤ npRound 2 y := by
  unfold npRound
  have : (roundHalfEven (x * 10 ^ 2) : ℚ) ≤ roundHalfEven (y * 10 ^ 2) := by
    exact_mod_cast roundHalfEven_mono (mul_le_mul_of_nonneg_right h (by positivity))
  exact div_le_div_of_nonneg_right this (by positivity)

theorem foldl_min_spec (l : List ℚ) : ∀ a : ℚ, l.foldl min a ∈ a :: l ∧ ∀ x ∈ a :: l, l.foldl min a ≤ x := by
  induction l with
  | nil => intro a; simp
  | cons b l ih =>
    intro a
    obtain ⟨h1, h2⟩ := ih (min a b)
    simp only [List.foldl_cons]
    refine ⟨?_, fun x hx => ?_⟩
    · rcases List.mem_cons.1 h1 with h | h
      · rw [h]
        rcases min_choice a b with e | e <;> rw [e] <;> simp
      · exact List.mem_cons_of_mem _ (List.mem_cons_of_mem _ h)
    · have h0 := h2 (min a b) List.mem_cons_self
      rcases List.mem_cons.1 hx with rfl | hx
      · exact h0.trans (min_le_left _ _)
      · rcases List.mem_cons.1 hx with rfl | hx
        · exact h0.trans (min_le_right _ _)
        · exact h2 x (List.mem_cons_of_mem _ hx)

theorem foldl_max_spec (l : List ℚ) : ∀ a : ℚ, l.foldl max a ∈ a :: l ∧ ∀ x ∈ a :: l, x ≤ l.foldl max a := by
  induction l with
  | nil => intro a; simp
  | cons b l ih =>
    intro a
    obtain ⟨h1, h2⟩ := ih (max a b)
    simp only [List.foldl_cons]
    refine ⟨?_, fun x hx => ?_⟩
    · rcases List.mem_cons.1 h1 with h | h
      · rw [h]
        rcases max_choice a b with e | e <;> rw [e] <;> simp
      · exact List.mem_cons_of_mem _ (List.mem_cons_of_mem _ h)
    · have h0 := h2 (max a b) List.mem_cons_self
      rcases List.mem_cons.1 hx with rfl | hx
      · exact (le_max_left _ _).trans h0
      · rcases List.mem_cons.1 hx with rfl | hx
        · exact (le_max_right _ _).trans h0
        · exact h2 x (List.mem_cons_of_mem _ hx)

theorem sum_bounds {lo hi : ℚ} : ∀ l : List ℚ, (∀ x ∈ l, lo ≤ x ∧ x ≤ hi) → lo * l.length ≤ l.sum ∧ l.sum ≤ hi * l.length := by
  intro l
  induction l with
  | nil => intro _; simp
  | cons a l ih =>
    intro h
    obtain ⟨h1, h2⟩ := ih fun x hx => h x (List.mem_cons_of_mem _ hx)
    obtain ⟨h3, h4⟩ := h a List.mem_cons_self
    simp only [List.length_cons, List.sum_cons]
    push_cast
    constructor <;> nlinarith

theorem shows_aggregate {l : List ℚ} (h : l ≠ []) : Shows (aggregate l).round l := by
  cases l with
  | nil => exact absurd rfl h
  | cons a l =>
    obtain ⟨m1, m2⟩ := foldl_min_spec l a
    obtain ⟨M1, M2⟩ := foldl_max_spec l a
    have hpos : (0 : ℚ) < ((a :: l).length : ℕ) := by simp only [List.length_cons]; push_cast; positivity
    obtain ⟨b1, b2⟩ := sum_bounds (a :: l) fun x hx => ⟨m2 x hx, M2 x hx⟩
    refine ⟨l.foldl min a, (a :: l).sum / (a :: l).length, l.foldl max a, m1, M1, fun x hx => ⟨m2 x hx, M2 x hx⟩, div_mul_cancel₀ _ hpos.ne',
      npRound_close _, npRound_close _, npRound_close _, npRound_mono ?_, npRound_mono ?_⟩
    · show l.foldl min a ≤ (a :: l).sum / (a :: l).length
      rw [le_div_iff₀ hpos]; exact b1
    · show (a :: l).sum / (a :: l).length ≤ l.foldl max a
      rw [div_le_iff₀ hpos]; exact b2

theorem ratio_le {l : List Bool} (h : l ≠ []) (p : ℤ) : p ≤ ratio l ↔ p * l.length ≤ 100 * (l.filter id).length := by
  have hpos : (0 : ℚ) < (l.length : ℕ) := by exact_mod_cast List.length_pos_iff.2 h
  unfold ratio
  rw [Int.le_floor, le_div_iff₀ hpos]
  constructor
  · intro h; exact_mod_cast h
  · intro h; exact_mod_cast h

/-! ### the table of recorded runs -/

/-- What the table reads from a recorded run. -/
structure ReadsAs (i : RunInfo) (r : RunData) : Prop where
  res : r.res = i.res
  total : r.total = i.total
  learner : i.times[0]? = some r.learner
  latex : r.key.latex = .text i.latex
  domains : r.key.domains = .text i.domains
  model : r.key.model = .text i.model
  ns : r.key.ns = .int i.nVars
  nu : r.key.nu = .int ((i.ctrLayer.bind List.getLast?).getD 0)
  cert : ∃ s, propertyName i.cert = .ok s ∧ r.key.cert = .text s
  neurons : r.key.neurons = (.nats i.neurons, if i.cert = .STABLESAFE ∨ i.cert = .RAR then .nats i.altNeurons else .none)
  acts : ∃ l, activationNames i.acts = .ok l ∧ r.key.acts.1 = .texts l
  altActs : ∃ l, (i.cert = .STABLESAFE ∨ i.cert = .RAR → activationNames i.altActs = .ok l) ∧
    r.key.acts.2 = if i.cert = .STABLESAFE ∨ i.cert = .RAR then .texts l else .none

theorem readRun_recorded {i : RunInfo} {row : List Cell} (h : recordRow i = .ok row) : ∃ r, readRun row = .ok r ∧ ReadsAs i r := by
  obtain ⟨-, c1, c2, -, c4, -, -, -, c8, c9, -, -, -, c13, c14, c15, c16, -, -, -, -, ⟨s, hs, c21⟩, ⟨l, hl, c22⟩, -, -, c25, ⟨l', hl', c26⟩⟩ :=
    C41_columns i row h
  have hlen : ∃ t0, i.times[0]? = some t0 := by
    unfold recordRow at h
    obtain ⟨ctrl, hctrl, h⟩ := except_bind_ok h
    obtain ⟨alt, halt, h⟩ := except_bind_ok h
    obtain ⟨prop, hp, h⟩ := except_bind_ok h
    obtain ⟨acts, hacts, h⟩ := except_bind_ok h
    obtain ⟨t0, h0, h⟩ := except_bind_ok h
    unfold at? at h0
    split at h0
    · rename_i a ha; exact ⟨a, ha⟩
    · cases h0
  obtain ⟨t0, ht⟩ := hlen
  rw [ht] at c9
  have e : ∀ {name : String} {c : Cell}, column row name = some c → cellOf row name = c := by
    intro name c hc
    unfold cellOf
    unfold column at hc
    rw [hc]
    rfl
  refine ⟨⟨keyOf row, i.res, i.total, t0⟩, ?_, ?_⟩
  · unfold readRun
    rw [e c2, e c8, e c9]
  · refine ⟨rfl, rfl, ht, e c15, e c16, e c14, e c1, e c13, ⟨s, hs, ?_⟩, ?_, ⟨l, hl, e c22⟩, ⟨l', hl', e c26⟩⟩
    · show renameCert (cellOf row "Certificate") = _
      rw [e c21]
      generalize i.cert = c at hs
      cases c <;> simp only [propertyName, Except.ok.injEq, reduceCtorEq] at hs <;> subst hs <;> rfl
    · show (cellOf row "Neurons", cellOf row "Alt_Neurons") = _
      rw [e c4, e c25]

/-- The key columns agree exactly for runs of the same experiment. -/
theorem key_eq_iff {i j : RunInfo} {r q : RunData} (hi : ReadsAs i r) (hj : ReadsAs j q) : r.key = q.key ↔ SameExperiment i j := by
  obtain ⟨s, hs, hs'⟩ := hi.cert
  obtain ⟨t, ht, ht'⟩ := hj.cert
  obtain ⟨l, hl, hl'⟩ := hi.acts
  obtain ⟨m, hm, hm'⟩ := hj.acts
  obtain ⟨l2, hl2, hl2'⟩ := hi.altActs
  obtain ⟨m2, hm2, hm2'⟩ := hj.altActs
  have hprop : s = t ↔ samePurpose i.cert j.cert := by
    generalize i.cert = a at hs
    generalize j.cert = b at ht
    cases a <;> simp only [propertyName, Except.ok.injEq, reduceCtorEq] at hs <;> subst hs <;>
    cases b <;> simp only [propertyName, Except.ok.injEq, reduceCtorEq] at ht <;> subst ht <;> simp [samePurpose]
  have htwo : samePurpose i.cert j.cert → ((i.cert = .STABLESAFE ∨ i.cert = .RAR) ↔ (j.cert = .STABLESAFE ∨ j.cert = .RAR)) := by
    intro h
    generalize i.cert = a at h
    generalize j.cert = b at h
    cases a <;> cases b <;> simp [samePurpose] at h ⊢
  constructor
  · intro h
    have hp : samePurpose i.cert j.cert := by
      refine hprop.1 ?_
      have := congrArg TableKey.cert h
      rw [hs', ht'] at this
      exact Cell.text.inj this
    have hn := congrArg TableKey.neurons h
    rw [hi.neurons, hj.neurons] at hn
    have ha := congrArg (fun k => k.acts.1) h
    simp only [hl', hm'] at ha
    have ha2 := congrArg (fun k => k.acts.2) h
    simp only [hl2', hm2'] at ha2
    refine ⟨?_, ?_, ?_, ?_, ?_, hp, ?_, ?_, ?_⟩
    · have := congrArg TableKey.latex h
      rw [hi.latex, hj.latex] at this
      exact Cell.text.inj this
    · have := congrArg TableKey.domains h
      rw [hi.domains, hj.domains] at this
      exact Cell.text.inj this
    · have := congrArg TableKey.model h
      rw [hi.model, hj.model] at this
      exact Cell.text.inj this
    · have := congrArg TableKey.ns h
      rw [hi.ns, hj.ns] at this
      exact_mod_cast Cell.int.inj this
    · have := congrArg TableKey.nu h
      rw [hi.nu, hj.nu] at this
      exact_mod_cast Cell.int.inj this
    · exact Cell.nats.inj (Prod.ext_iff.1 hn).1
    · rw [hl, hm]; exact congrArg _ (Cell.texts.inj ha)
    · intro h2
      have h2 : i.cert = .STABLESAFE ∨ i.cert = .RAR := h2
      have h2' := (htwo hp).1 h2
      rw [if_pos h2, if_pos h2'] at ha2
      have hn2 := (Prod.ext_iff.1 hn).2
      simp only [if_pos h2, if_pos h2'] at hn2
      refine ⟨Cell.nats.inj hn2, ?_⟩
      rw [hl2 h2, hm2 h2']
      exact congrArg _ (Cell.texts.inj ha2)
  · intro h
    have hst := hprop.2 h.property
    have hlm : l = m := by
      have := h.acts
      rw [hl, hm] at this
      exact Except.ok.inj this
    have hiff := htwo h.property
    have e1 : r.key.neurons = q.key.neurons := by
      rw [hi.neurons, hj.neurons, h.neurons]
      by_cases h2 : i.cert = .STABLESAFE ∨ i.cert = .RAR
      · rw [if_pos h2, if_pos (hiff.1 h2), (h.alt h2).1]
      · rw [if_neg h2, if_neg (fun h3 => h2 (hiff.2 h3))]
    have e2 : r.key.acts = q.key.acts := by
      refine Prod.ext (by rw [hl', hm', hlm]) ?_
      rw [hl2', hm2']
      by_cases h2 : i.cert = .STABLESAFE ∨ i.cert = .RAR
      · rw [if_pos h2, if_pos (hiff.1 h2)]
        have := (h.alt h2).2
        rw [hl2 h2, hm2 (hiff.1 h2)] at this
        rw [Except.ok.inj this]
      · rw [if_neg h2, if_neg (fun h3 => h2 (hiff.2 h3))]
    have e3 : r.key.latex = q.key.latex := by rw [hi.latex, hj.latex, h.latex]
    have e4 : r.key.domains = q.key.domains := by rw [hi.domains, hj.domains, h.domains]
    have e5 : r.key.model = q.key.model := by rw [hi.model, hj.model, h.model]
    have e6 : r.key.ns = q.key.ns := by rw [hi.ns, hj.ns, h.nVars]
    have e7 : r.key.nu = q.key.nu := by rw [hi.nu, hj.nu, h.nControls]
    have e8 : r.key.cert = q.key.cert := by rw [hs', ht', hst]
    cases hr : r.key
    cases hq : q.key
    rw [hr, hq] at e1 e2 e3 e4 e5 e6 e7 e8
    simp only at e1 e2 e3 e4 e5 e6 e7 e8
    subst e1 e2 e3 e4 e5 e6 e7 e8
    rfl

theorem reads_not_missing {i : RunInfo} {r : RunData} (h : ReadsAs i r) (h1 : i.latex ≠ "") (h2 : i.domains ≠ "") (h3 : i.model ≠ "") : r.key.missing = false := by
  obtain ⟨s, hs, hs'⟩ := h.cert
  obtain ⟨l, hl, hl'⟩ := h.acts
  have : s ≠ "" := by
    generalize i.cert = c at hs
    cases c <;> simp only [propertyName, Except.ok.injEq, reduceCtorEq] at hs <;> subst hs <;> decide
  simp [TableKey.missing, Cell.missing, h.latex, h.domains, h.model, h.ns, h.nu, h.neurons, hs', hl', h1, h2, h3, this]

theorem reads_all {runs : List RunInfo} {rows : List (List Cell)} (h : List.Forall₂ (fun i row => recordRow i = .ok row) runs rows) :
    ∃ ps : List (RunInfo × RunData), ps.map Prod.fst = runs ∧ rows.mapM readRun = .ok (ps.map Prod.snd) ∧ ∀ p ∈ ps, ReadsAs p.1 p.2 := by
  induction h with
  | nil => exact ⟨[], rfl, rfl, by simp⟩
  | cons hd _ ih =>
    obtain ⟨ps, h1, h2, h3⟩ := ih
    obtain ⟨r, hr, hr'⟩ := readRun_recorded hd
    rename_i i row runs rows _
    refine ⟨(i, r) :: ps, by simp [h1], ?_, ?_⟩
    · rw [List.mapM_cons, hr, h2]; rfl
    · intro p hp
      rcases List.mem_cons.1 hp with rfl | hp
      · exact hr'
      · exact h3 p hp

theorem pairwise_of_keys {α κ : Type} {key : α → κ} : ∀ {d : List (κ × List α)}, (d.map Prod.fst).Nodup → (∀ e ∈ d, ∀ r ∈ e.2, key r = e.1) →
    d.Pairwise (fun c e => ∀ a ∈ c.2, ∀ b ∈ e.2, key a ≠ key b) := by
  intro d
  induction d with
  | nil => intro _ _; exact List.Pairwise.nil
  | cons e d ih =>
    intro hn hs
    rw [List.map_cons, List.nodup_cons] at hn
    refine List.Pairwise.cons ?_ (ih hn.2 fun e he => hs e (List.mem_cons_of_mem _ he))
    intro e' he' a ha b hb hab
    rw [hs e List.mem_cons_self a ha, hs e' (List.mem_cons_of_mem _ he') b hb] at hab
    exact hn.1 (hab ▸ List.mem_map_of_mem he')

theorem line_shows (kk : TableKey) (l0 : List (RunInfo × RunData)) (hnil : l0 ≠ []) (hkey : ∀ p ∈ l0, p.2.key = kk) (hread : ∀ p ∈ l0, ReadsAs p.1 p.2) :
    LineShows (l0.map Prod.fst) (lineOf (kk, l0.map Prod.snd)) := by
  refine ⟨?_, ?_, ?_, ?_⟩
  · intro i hi
    obtain ⟨p, hp, rfl⟩ := List.mem_map.1 hi
    have hr := hread p hp
    have hk := hkey p hp
    obtain ⟨l2, hl2, hl2'⟩ := hr.altActs
    refine ⟨?_, ?_, ?_, ?_, ?_, fun h => ?_, fun h => ?_⟩
    · show kk.ns = _; rw [← hk]; exact hr.ns
    · show kk.nu = _; rw [← hk]; exact hr.nu
    · obtain ⟨s, hs, hs'⟩ := hr.cert
      exact ⟨s, hs, by show kk.cert = _; rw [← hk]; exact hs'⟩
    · show kk.neurons.1 = _; rw [← hk, hr.neurons]
    · obtain ⟨l, hl, hl'⟩ := hr.acts
      exact ⟨l, hl, by show kk.acts.1 = _; rw [← hk]; exact hl'⟩
    · have h : p.1.cert = .STABLESAFE ∨ p.1.cert = .RAR := h
      refine ⟨?_, l2, hl2 h, ?_⟩
      · show kk.neurons.2 = _; rw [← hk, hr.neurons, if_pos h]
      · show kk.acts.2 = _; rw [← hk, hl2', if_pos h]
    · have h : ¬ (p.1.cert = .STABLESAFE ∨ p.1.cert = .RAR) := h
      refine ⟨?_, ?_⟩
      · show kk.neurons.2 = _; rw [← hk, hr.neurons, if_neg h]
      · show kk.acts.2 = _; rw [← hk, hl2', if_neg h]
  · have hl : (l0.map Prod.snd).map (·.total) = (l0.map Prod.fst).map (·.total) := by
      rw [List.map_map, List.map_map]
      exact List.map_congr_left fun p hp => (hread p hp).total
    have e : (lineOf (kk, l0.map Prod.snd)).total = (aggregate ((l0.map Prod.snd).map (·.total))).round := rfl
    rw [e, hl]
    exact shows_aggregate (by simpa using hnil)
  · have hl : (l0.map Prod.snd).map (·.learner) = (l0.map Prod.fst).map (fun i => i.times.headD 0) := by
      rw [List.map_map, List.map_map]
      refine List.map_congr_left fun p hp => ?_
      have := (hread p hp).learner
      show p.2.learner = p.1.times.headD 0
      cases ht : p.1.times with
      | nil => rw [ht] at this; cases this
      | cons a l => rw [ht] at this; exact (Option.some.inj this).symm
    have e : (lineOf (kk, l0.map Prod.snd)).learner = (aggregate ((l0.map Prod.snd).map (·.learner))).round := rfl
    rw [e, hl]
    exact shows_aggregate (by simpa using hnil)
  · intro q
    have hl : (l0.map Prod.snd).map (·.res) = (l0.map Prod.fst).map (·.res) := by
      rw [List.map_map, List.map_map]
      exact List.map_congr_left fun p hp => (hread p hp).res
    have e : (lineOf (kk, l0.map Prod.snd)).success = ratio ((l0.map Prod.snd).map (·.res)) := rfl
    rw [e, hl, ratio_le (by simpa using hnil)]
    rw [List.filter_map, List.length_map, List.length_map, List.length_map]
    rfl

/-- **C71.** From any list of recorded runs the table has one line per experiment: the runs are divided into classes — each run in exactly one, two runs
in the same class exactly if they are of the same experiment —, in the order in which the experiments first appear, and each line shows its class. -/
theorem C71_table (runs : List RunInfo) (rows : List (List Cell)) (hrec : List.Forall₂ (fun i row => recordRow i = .ok row) runs rows)
    (hne : ∀ i ∈ runs, i.latex ≠ "" ∧ i.domains ≠ "" ∧ i.model ≠ "") :
    ∃ (lines : List TableLine) (classes : List (List RunInfo)), tableMain rows = .ok lines ∧ classes.flatten.Perm runs ∧
      (∀ c ∈ classes, c ≠ [] ∧ c.Sublist runs ∧ ∀ i ∈ c, ∀ j ∈ c, SameExperiment i j) ∧
      classes.Pairwise (fun c d => ∀ i ∈ c, ∀ j ∈ d, ¬ SameExperiment i j) ∧
      (classes.filterMap List.head?).Sublist runs ∧ List.Forall₂ LineShows classes lines := by
  obtain ⟨ps, h1, h2, h3⟩ := reads_all hrec
  have hfil : (ps.map Prod.snd).filter (fun r => !r.key.missing) = ps.map Prod.snd := by
    rw [List.filter_eq_self]
    intro r hr
    obtain ⟨p, hp, rfl⟩ := List.mem_map.1 hr
    obtain ⟨a, b, c⟩ := hne p.1 (h1 ▸ List.mem_map_of_mem hp)
    rw [reads_not_missing (h3 p hp) a b c]
    rfl
  have hG := groupOn_groups (RunData.key ∘ Prod.snd) ps
  set G := groupOn (RunData.key ∘ Prod.snd) ps with hGd
  have hmem : ∀ e ∈ G, ∀ p ∈ e.2, p ∈ ps := fun e he p hp => (hG.order e he).subset hp
  refine ⟨G.map fun e => lineOf (e.1, e.2.map Prod.snd), G.map fun e => e.2.map Prod.fst, ?_, ?_, ?_, ?_, ?_, ?_⟩
  · unfold tableMain
    rw [h2]
    simp only [hfil, groupRuns_eq]
    rw [groupOn_map, List.map_map]
    rfl
  · have := hG.perm.map Prod.fst
    rw [h1, List.map_flatten, List.map_map] at this
    exact this
  · intro c hc
    obtain ⟨e, he, rfl⟩ := List.mem_map.1 hc
    refine ⟨by simpa using (hG.same e he).1, ?_, ?_⟩
    · rw [← h1]; exact (hG.order e he).map _
    · intro i hi j hj
      obtain ⟨p, hp, rfl⟩ := List.mem_map.1 hi
      obtain ⟨q, hq, rfl⟩ := List.mem_map.1 hj
      refine (key_eq_iff (h3 p (hmem e he p hp)) (h3 q (hmem e he q hq))).1 ?_
      have a := (hG.same e he).2 p hp
      have b := (hG.same e he).2 q hq
      exact a.trans b.symm
  · rw [List.pairwise_map]
    refine (pairwise_of_keys hG.nodup fun e he => (hG.same e he).2).imp_of_mem ?_
    intro e e' he he' h i hi j hj hsame
    obtain ⟨p, hp, rfl⟩ := List.mem_map.1 hi
    obtain ⟨q, hq, rfl⟩ := List.mem_map.1 hj
    exact h p hp q hq ((key_eq_iff (h3 p (hmem e he p hp)) (h3 q (hmem e' he' q hq))).2 hsame)
  · have := hG.first.map Prod.fst
    rw [h1, List.map_filterMap] at this
    rw [List.filterMap_map]
    convert this using 2
    rename_i e _
    show (e.2.map Prod.fst).head? = _
    cases e.2 <;> rfl
  · rw [List.forall₂_map_left_iff, List.forall₂_map_right_iff, List.forall₂_same]
    intro e he
    exact line_shows e.1 e.2 (hG.same e he).1 (hG.same e he).2 fun p hp => h3 p (hmem e he p hp)

/-- **C71 (the percentage).** 100 is shown exactly if all runs of the experiment succeeded; 0 does not mean that none did, only fewer than one in a hundred. -/
theorem C71_percent {c : List RunInfo} (hc : c ≠ []) {line : TableLine} (h : LineShows c line) :
    (line.success = 100 ↔ ∀ i ∈ c, i.res = true) ∧ 0 ≤ line.success ∧ line.success ≤ 100 ∧
    (line.success = 0 ↔ 100 * (c.filter (·.res)).length < c.length) := by
  have hle : (c.filter (·.res)).length ≤ c.length := List.length_filter_le _ _
  have hpos : 0 < c.length := List.length_pos_iff.2 hc
  have h0 : 0 ≤ line.success := (h.success 0).2 (by simp)
  have h100 : line.success ≤ 100 := by
    by_contra hlt
    have := (h.success 101).1 (by omega)
    omega
  refine ⟨?_, h0, h100, ?_⟩
  · constructor
    · intro e
      have := (h.success 100).1 (by omega)
      have hl : (c.filter (·.res)).length = c.length := by omega
      exact List.filter_eq_self.1 (List.filter_sublist.eq_of_length hl)
    · intro hall
      have hl : c.filter (·.res) = c := List.filter_eq_self.2 hall
      have := (h.success 100).2 (by rw [hl])
      omega
  · constructor
    · intro e
      have := (h.success 1).not.1 (by omega)
      omega
    · intro hlt
      have := (h.success 1).not.2 (by omega)
      omega

/-- **C71 (left-out rows).** A row with an empty entry in a key column is in no line; the others are grouped as if it were not there. -/
theorem C71_missing_dropped (rows : List (List Cell)) (row : List Cell) (rows' : List (List Cell)) (r : RunData) (hr : readRun row = .ok r) (hm : (keyOf row).missing = true) :
    tableMain (rows ++ row :: rows') = tableMain (rows ++ rows') := by
  have hk : r.key = keyOf row := by
    unfold readRun at hr
    split at hr
    · cases hr; rfl
    · cases hr
  unfold tableMain
  rw [List.mapM_append, List.mapM_append, List.mapM_cons, hr]
  cases h1 : rows.mapM readRun with
  | error e => rfl
  | ok a =>
    cases h2 : rows'.mapM readRun with
    | error e => simp [Bind.bind, Except.bind, pure, Except.pure]
    | ok b => simp [Bind.bind, Except.bind, pure, Except.pure, hk, hm]

/-! ### concrete cases -/

def exRunInfo (cert : CertType) (seed : ℤ) (verifier : String) (res : Bool) (t : ℚ) : RunInfo where
  cert := cert
  nVars := 2
  ctrLayer := none
  ctrlActs := []
  res := res
  model := "NonPoly0"
  seed := seed
  latex := "x"
  domains := "d"
  nData := 500
  neurons := [6]
  acts := [.SQUARE]
  altNeurons := []
  altActs := []
  factors := "NONE"
  llo := true
  belt := false
  timeDomain := "CONTINUOUS"
  verifier := verifier
  loops := 3
  total := t
  times := [t/2, 0, 0, 0]

/-- Three runs of two experiments (the first and third differ in seed, solver and outcome): two lines, 50% and 100%. -/
example : ∃ rows, [exRunInfo .LYAPUNOV 1 "Z3" true 1, exRunInfo .BARRIER 1 "Z3" true 3, exRunInfo .LYAPUNOV 2 "DREAL" false 2].mapM recordRow = .ok rows ∧
    ∃ lines, tableMain rows = .ok lines ∧ lines.map (fun l => (l.success, l.total)) = [(50, ⟨1, 3/2, 2⟩), (100, ⟨3, 3, 3⟩)] :=
  ⟨_, rfl, _, rfl, by decide +kernel⟩

/-- Runs of different networks may be in one line: the names of the activations `x⁴` (polynomial with even powers only, or with all powers) coincide. -/
theorem C71_shared_names (i : RunInfo) : SameExperiment { i with acts := [.POLY_4] } { i with acts := [.EVEN_POLY_4] } :=
  ⟨rfl, rfl, rfl, rfl, rfl, Or.inl rfl, rfl, rfl, fun _ => ⟨rfl, rfl⟩⟩

/-- The certificate names of earlier versions of the tool and of this one. -/
abbrev Spec.SameCertificateName (s t : String) : Prop :=
  s = t ∨ (s ∈ ["RWS", "RWA"] ∧ t ∈ ["RWS", "RWA"]) ∨ (s ∈ ["RSWS", "RSWA"] ∧ t ∈ ["RSWS", "RSWA"])

/-- **C71 (names of earlier versions).** A row written with a name of an earlier version is summarised with the rows that carry the name of this version, and with
no others: two rows that agree in the other index columns have the same key if and only if their certificate names mean the same. -/
theorem C71_old_names (row row' : List Cell) (s s' : String) (hs : cellOf row "Certificate" = .text s) (hs' : cellOf row' "Certificate" = .text s')
    (h : ∀ n ∈ ["latex", "domains", "Benchmark_file", "N_s", "N_u", "Neurons", "Alt_Neurons", "Activations", "Alt_Activations"], cellOf row n = cellOf row' n) :
    keyOf row = keyOf row' ↔ Spec.SameCertificateName s s' := by
  have hk : keyOf row = keyOf row' ↔ renameCert (.text s) = renameCert (.text s') := by
    rw [← hs, ← hs']
    constructor
    · intro e
      exact congrArg TableKey.cert e
    · intro e
      unfold keyOf
      rw [e, h "latex" (by simp), h "domains" (by simp), h "Benchmark_file" (by simp), h "N_s" (by simp), h "N_u" (by simp), h "Neurons" (by simp),
        h "Alt_Neurons" (by simp), h "Activations" (by simp), h "Alt_Activations" (by simp)]
  rw [hk]
  unfold renameCert Spec.SameCertificateName
  rw [Cell.text.injEq]
  have five : ∀ s : String, s = "RWS" ∨ s = "RWA" ∨ s = "RSWS" ∨ s = "RSWA" ∨ (s ≠ "RWS" ∧ s ≠ "RWA" ∧ s ≠ "RSWS" ∧ s ≠ "RSWA") := by
    intro s; tauto
  rcases five s with rfl | rfl | rfl | rfl | ⟨a1, a2, a3, a4⟩ <;> rcases five s' with rfl | rfl | rfl | rfl | ⟨b1, b2, b3, b4⟩ <;>
    first
    | decide
    | (simp [a1, a2, a3, a4, b1, b2, b3, b4]; done)
    | (simp [b1, b2, b3, b4, b1.symm, b2.symm, b3.symm, b4.symm]; done)
    | (simp [a1, a2, a3, a4, a1.symm, a2.symm, a3.symm, a4.symm]; done)

/-- Two rows that meet the hypotheses, with an old and a new name. -/
example : ∃ row row', cellOf row "Certificate" = .text "RWS" ∧ cellOf row' "Certificate" = .text "RWA" ∧ keyOf row = keyOf row' := by
  let mk (s : String) : List Cell := csvHeader.map fun h => if h = "Certificate" then .text s else .none
  have h1 : cellOf (mk "RWS") "Certificate" = .text "RWS" := by simp [cellOf, mk, csvHeader, List.idxOf, List.findIdx, List.findIdx.go]
  have h2 : cellOf (mk "RWA") "Certificate" = .text "RWA" := by simp [cellOf, mk, csvHeader, List.idxOf, List.findIdx, List.findIdx.go]
  refine ⟨mk "RWS", mk "RWA", h1, h2, (C71_old_names _ _ _ _ h1 h2 ?_).2 (by decide)⟩
  intro n hn
  fin_cases hn <;> simp [cellOf, mk, csvHeader, List.idxOf, List.findIdx, List.findIdx.go]

end Fossil
