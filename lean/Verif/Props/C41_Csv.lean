/-
C41: the experiment record.
-/
import Verif.Csv
import Mathlib.Data.List.Perm.Basic
import Mathlib.Data.List.Count

namespace Fossil
variable {R : Type}

/-- **C41.** After any sequence of recorded experiments a results file that did not exist before has exactly one header line, first,
followed by one line per experiment in order; a file that existed is only appended to. -/
theorem C41_records_partial (rs : List R) (hne : rs ≠ []) :
    rs.foldl csvRecord (none : CsvFile R) = some (.header :: rs.map .row) ∧
    ∀ old : List (CsvLine R), rs.foldl csvRecord (some old) = some (old ++ rs.map .row) := by
  have hold : ∀ (rs : List R) (old : List (CsvLine R)), rs.foldl csvRecord (some old) = some (old ++ rs.map .row) := by
    intro rs
    induction rs with
    | nil => intro old; simp
    | cons r rs ih => intro old; simp [csvRecord, csvInit, csvWrite, CsvFile.append, ih]
  refine ⟨?_, hold rs⟩
  cases rs with
  | nil => exact absurd rfl hne
  | cons r rs => simp [csvRecord, csvInit, csvWrite, CsvFile.append, hold]

/-- **C41, a missing case.** An existing but empty results file never gets a header. -/
theorem C41_empty_file_no_header (rs : List R) : ∃ ls, rs.foldl csvRecord (some [] : CsvFile R) = some ls ∧ CsvLine.header ∉ ls := by
  cases rs with
  | nil => exact ⟨[], rfl, by simp⟩
  | cons r rs => exact ⟨_, (C41_records_partial (r :: rs) (by simp)).2 [], by simp⟩

/-! ### concurrent recording -/

/-- Rows of the finished processes. -/
def doneRows (ps : List (R × CsvPc)) : List R := (ps.filter (fun p => p.2 = .done)).map Prod.fst

/-- Data rows of a file. -/
def dataRows : List (CsvLine R) → List R
  | [] => []
  | .header :: ls => dataRows ls
  | .row r :: ls => r :: dataRows ls

theorem dataRows_append (a b : List (CsvLine R)) : dataRows (a ++ b) = dataRows a ++ dataRows b := by
  induction a with
  | nil => rfl
  | cons l a ih => cases l <;> simp [dataRows, ih]

/-- What holds along every schedule of processes recording into a file that did not exist at the start. -/
structure CsvInv (s : CsvSys R) : Prop where
  absent : s.file = none → ∀ p ∈ s.procs, p.2 = .start ∨ p.2 = .missing
  first : ∀ ls, s.file = some ls → ∃ ls', ls = .header :: ls'
  rows : (dataRows (s.file.getD [])).Perm (doneRows s.procs)

theorem doneRows_set {ps : List (R × CsvPc)} {i : ℕ} {r : R} {pc pc' : CsvPc} (h : ps[i]? = some (r, pc)) (hp : pc ≠ .done) :
    (doneRows (ps.set i (r, pc'))).Perm (if pc' = .done then r :: doneRows ps else doneRows ps) := by
  induction ps generalizing i with
  | nil => simp at h
  | cons p ps ih =>
    cases i with
    | zero =>
      simp at h
      subst h
      by_cases hd : pc' = .done <;> simp [doneRows, hd, hp]
    | succ i =>
      simp at h
      have := ih h
      have hcons : ∀ qs : List (R × CsvPc), doneRows (p :: qs) = (if p.2 = .done then [p.1] else []) ++ doneRows qs := by
        intro qs; by_cases hd : p.2 = .done <;> simp [doneRows, hd]
      rw [List.set_cons_succ, hcons, hcons]
      split_ifs at this ⊢ with h1 h2
      · exact (List.Perm.append_left _ this).trans (List.Perm.swap _ _ _)
      · simpa using this
      · exact List.Perm.append_left _ this
      · simpa using this

theorem CsvInv.step {s : CsvSys R} (h : CsvInv s) (i : ℕ) : CsvInv (s.step i) := by
  unfold CsvSys.step
  cases hi : s.procs[i]? with
  | none => exact h
  | some p =>
    obtain ⟨r, pc⟩ := p
    have hmem : (r, pc) ∈ s.procs := List.mem_of_getElem? hi
    have hset : ∀ q ∈ s.procs.set i (r, (csvProcStep s.file r pc).2), q ∈ s.procs ∨ q = (r, (csvProcStep s.file r pc).2) := by
      intro q hq
      exact List.mem_or_eq_of_mem_set hq
    cases pc with
    | start =>
      refine ⟨?_, h.first, ?_⟩
      · intro hf q hq
        rcases hset q hq with hq | rfl
        · exact h.absent hf q hq
        · right
          have : s.file = none := hf
          simp [csvProcStep, this]
      · refine h.rows.trans ?_
        have := doneRows_set hi (by simp) (pc' := (csvProcStep s.file r .start).2)
        rw [if_neg (by simp only [csvProcStep]; split <;> simp)] at this
        exact this.symm
    | missing =>
      refine ⟨?_, ?_, ?_⟩
      · intro hf; simp [csvProcStep, CsvFile.append] at hf
      · intro ls hls
        simp only [csvProcStep, CsvFile.append, Option.some.injEq] at hls
        subst hls
        cases hf : s.file with
        | none => exact ⟨[], rfl⟩
        | some l => obtain ⟨l', rfl⟩ := h.first l hf; exact ⟨l' ++ [.header], rfl⟩
      · have := doneRows_set hi (by simp) (pc' := .ready)
        simp only [reduceCtorEq, if_false] at this
        refine List.Perm.trans ?_ this.symm
        simp only [csvProcStep, CsvFile.append, Option.getD_some, dataRows_append]
        simpa [dataRows] using h.rows
    | ready =>
      refine ⟨?_, ?_, ?_⟩
      · intro hf; simp [csvProcStep, CsvFile.append] at hf
      · intro ls hls
        simp only [csvProcStep, CsvFile.append, Option.some.injEq] at hls
        subst hls
        cases hf : s.file with
        | none => rcases h.absent hf _ hmem with h' | h' <;> cases h'
        | some l => obtain ⟨l', rfl⟩ := h.first l hf; exact ⟨l' ++ [.row r], rfl⟩
      · have := doneRows_set hi (by simp) (pc' := .done)
        simp only [if_true] at this
        refine List.Perm.trans ?_ this.symm
        simp only [csvProcStep, CsvFile.append, Option.getD_some, dataRows_append]
        simp only [dataRows]
        exact List.perm_append_singleton r _ |>.trans (List.Perm.cons r h.rows)
    | done =>
      have e : s.procs.set i (r, (csvProcStep s.file r .done).2) = s.procs := by
        obtain ⟨hlt, he⟩ := List.getElem?_eq_some_iff.1 hi
        simp only [csvProcStep]
        rw [← he]; exact List.set_getElem_self hlt
      refine ⟨?_, h.first, ?_⟩
      · intro hf; simp only [e]; exact h.absent hf
      · simp only [e]; exact h.rows

/-- **C41, concurrent writers.** However the scheduler interleaves any number of processes recording into a results file that did not
exist: the first line of the file is the header, and when all are finished the data lines are the recorded rows, each exactly
once. -/
theorem C41_concurrent_rows_kept (rs : List R) (sched : List ℕ) :
    let s := (CsvSys.mk (none : CsvFile R) (rs.map (fun r => (r, .start)))).run sched
    (∀ ls, s.file = some ls → ∃ ls', ls = .header :: ls') ∧
    ((∀ p ∈ s.procs, p.2 = .done) → (dataRows (s.file.getD [])).Perm rs) := by
  have hrun : ∀ (sched : List ℕ) (s : CsvSys R), CsvInv s → CsvInv (s.run sched) ∧
      (s.run sched).procs.map Prod.fst = s.procs.map Prod.fst := by
    intro sched
    induction sched with
    | nil => intro s h; exact ⟨h, rfl⟩
    | cons i is ih =>
      intro s h
      obtain ⟨h1, h2⟩ := ih (s.step i) (h.step i)
      refine ⟨h1, h2.trans ?_⟩
      unfold CsvSys.step
      cases hi : s.procs[i]? with
      | none => rfl
      | some p =>
        obtain ⟨hlt, he⟩ := List.getElem?_eq_some_iff.1 hi
        simp only [List.map_set]
        have : (s.procs.map Prod.fst)[i]'(by simpa using hlt) = p.1 := by simp [he]
        rw [← this, List.set_getElem_self]
  have h0 : CsvInv (CsvSys.mk (none : CsvFile R) (rs.map (fun r => (r, .start)))) := by
    refine ⟨?_, ?_, ?_⟩
    · intro _ p hp; simp at hp; obtain ⟨r, _, rfl⟩ := hp; exact Or.inl rfl
    · intro ls h; cases h
    · simp [dataRows, doneRows, List.filter_map]
  obtain ⟨h1, h2⟩ := hrun sched _ h0
  refine ⟨h1.first, fun hd => h1.rows.trans ?_⟩
  have : doneRows ((CsvSys.mk (none : CsvFile R) (rs.map (fun r => (r, CsvPc.start)))).run sched).procs = rs := by
    rw [doneRows, List.filter_eq_self.2 (by simpa using hd), h2, List.map_map]
    exact List.map_id' rs
  rw [this]

/-- **C41, the race.** Two experiments recording concurrently for the first time can leave two header lines, the second one between the
data. -/
theorem C41_concurrent_two_headers (r₁ r₂ : R) :
    ((CsvSys.mk (none : CsvFile R) [(r₁, .start), (r₂, .start)]).run [0, 1, 0, 0, 1, 1]).file =
      some [.header, .row r₁, .header, .row r₂] ∧
    ∀ p ∈ ((CsvSys.mk (none : CsvFile R) [(r₁, .start), (r₂, .start)]).run [0, 1, 0, 0, 1, 1]).procs, p.2 = .done := by
  constructor
  · rfl
  · intro p hp
    simp [CsvSys.run, CsvSys.step, csvProcStep, CsvFile.append] at hp
    rcases hp with rfl | rfl <;> rfl

/-! ### columns -/

/-- The cell in the column with the given name. -/
def column (row : List Cell) (name : String) : Option Cell := row[csvHeader.idxOf name]?

/-- **C41, columns.** A recorded row has one cell per column, under the right name. -/
theorem C41_columns (i : RunInfo) (row : List Cell) (h : recordRow i = .ok row) :
    row.length = csvHeader.length ∧ column row "N_s" = some (.int i.nVars) ∧ column row "Result" = some (.bool i.res) ∧
      column row "seed" = some (.int i.seed) ∧ column row "Neurons" = some (.nats i.neurons) ∧
      column row "LLO" = some (.bool i.llo) ∧ column row "Verifier" = some (.text i.verifier) ∧
      column row "Loops" = some (.int i.loops) ∧ column row "Total_Time" = some (.num i.total) ∧
      column row "Learner_Time" = i.times[0]?.map .num ∧ column row "Translator_Time" = i.times[1]?.map .num ∧
      column row "Verifier_Time" = i.times[2]?.map .num ∧ column row "Consolidator_Time" = i.times[3]?.map .num ∧
      column row "N_u" = some (.int ((i.ctrLayer.bind List.getLast?).getD 0)) ∧
      column row "Benchmark_file" = some (.text i.model) ∧ column row "latex" = some (.text i.latex) ∧
      column row "domains" = some (.text i.domains) ∧ column row "N_Data" = some (.int i.nData) ∧
      column row "Factors" = some (.text i.factors) ∧ column row "Symmetric_Belt" = some (.bool i.belt) ∧
      column row "Time_Domain" = some (.text i.timeDomain) ∧
      (∃ s, propertyName i.cert = .ok s ∧ column row "Certificate" = some (.text s)) ∧
      (∃ l, activationNames i.acts = .ok l ∧ column row "Activations" = some (.texts l)) ∧
      column row "Ctrl_Neurons" = some (match i.ctrLayer with | none => .none | some l => .nats l.dropLast) ∧
      column row "Ctrl_Activations" = some (match i.ctrLayer with | none => .none | some _ => .texts i.ctrlActs) ∧
      column row "Alt_Neurons" = some (if i.cert = .STABLESAFE ∨ i.cert = .RAR then .nats i.altNeurons else .none) ∧
      (∃ l, (i.cert = .STABLESAFE ∨ i.cert = .RAR → activationNames i.altActs = .ok l) ∧
        column row "Alt_Activations" = some (if i.cert = .STABLESAFE ∨ i.cert = .RAR then .texts l else .none)) := by
  unfold recordRow at h
  obtain ⟨ctrl, hctrl, h⟩ := except_bind_ok h
  obtain ⟨alt, halt, h⟩ := except_bind_ok h
  obtain ⟨prop, hp, h⟩ := except_bind_ok h
  obtain ⟨acts, hacts, h⟩ := except_bind_ok h
  obtain ⟨t0, h0, h⟩ := except_bind_ok h
  obtain ⟨t1, h1, h⟩ := except_bind_ok h
  obtain ⟨t2, h2, h⟩ := except_bind_ok h
  obtain ⟨t3, h3, h⟩ := except_bind_ok h
  cases h
  have hat : ∀ (l : List ℚ) (k : ℕ) (q : ℚ), at? l k = .ok q → l[k]? = some q := by
    intro l k q hq
    unfold at? at hq
    split at hq
    · rename_i a ha; cases hq; exact ha
    · cases hq
  rw [hat _ _ _ h0, hat _ _ _ h1, hat _ _ _ h2, hat _ _ _ h3]
  have hc : ctrl.1 = .int ((i.ctrLayer.bind List.getLast?).getD 0) ∧
      ctrl.2.1 = (match i.ctrLayer with | none => .none | some l => .nats l.dropLast) ∧
      ctrl.2.2 = (match i.ctrLayer with | none => .none | some _ => .texts i.ctrlActs) := by
    unfold ctrlCells at hctrl
    split at hctrl
    · rename_i hl; cases hctrl; simp [hl]
    · rename_i l hl
      split at hctrl
      · rename_i m hm; cases hctrl; simp [hl, hm]
      · cases hctrl
  have ha : alt.1 = (if i.cert = .STABLESAFE ∨ i.cert = .RAR then .nats i.altNeurons else .none) ∧
      ∃ l, (i.cert = .STABLESAFE ∨ i.cert = .RAR → activationNames i.altActs = .ok l) ∧
        alt.2 = (if i.cert = .STABLESAFE ∨ i.cert = .RAR then .texts l else .none) := by
    unfold altCells at halt
    split_ifs at halt with hb
    · split at halt
      · rename_i l hl; cases halt; exact ⟨by rw [if_pos hb], l, fun _ => hl, by rw [if_pos hb]⟩
      · cases halt
    · cases halt; exact ⟨by rw [if_neg hb], [], fun h => absurd h hb, by rw [if_neg hb]⟩
  obtain ⟨hc1, hc2, hc3⟩ := hc
  obtain ⟨ha1, l, hl, ha2⟩ := ha
  refine ⟨rfl, rfl, rfl, rfl, rfl, rfl, rfl, rfl, rfl, rfl, rfl, rfl, rfl, ?_, rfl, rfl, rfl, rfl, rfl, rfl, rfl, ⟨prop, hp, rfl⟩,
    ⟨acts, hacts, rfl⟩, ?_, ?_, ?_, l, hl, ?_⟩
  · rw [← hc1]; rfl
  · rw [← hc2]; rfl
  · rw [← hc3]; rfl
  · rw [← ha1]; rfl
  · rw [← ha2]; rfl

/-- The certificate types that stand for the same property: the two barrier certificates, and the avoid/safe pairs. -/
def Spec.samePurpose (a b : CertType) : Prop :=
  a = b ∨ (a, b) ∈ [(CertType.BARRIER, CertType.BARRIERALT), (.BARRIERALT, .BARRIER), (.RWA, .RWS), (.RWS, .RWA), (.RSWA, .RSWS), (.RSWS, .RSWA)]

/-- **C41, the Certificate column tells the property.** Two recorded runs show the same entry in the Certificate column exactly if their
certificate types stand for the same property. -/
theorem C41_certificate_column (i j : RunInfo) (ri rj : List Cell) (hi : recordRow i = .ok ri) (hj : recordRow j = .ok rj) :
    column ri "Certificate" = column rj "Certificate" ↔ Spec.samePurpose i.cert j.cert := by
  obtain ⟨s, hs, hs'⟩ := (C41_columns i ri hi).2.2.2.2.2.2.2.2.2.2.2.2.2.2.2.2.2.2.2.2.2.1
  obtain ⟨t, ht, ht'⟩ := (C41_columns j rj hj).2.2.2.2.2.2.2.2.2.2.2.2.2.2.2.2.2.2.2.2.2.1
  rw [hs', ht']
  generalize i.cert = a at *
  generalize j.cert = b at *
  cases a <;> simp only [propertyName, Except.ok.injEq, reduceCtorEq] at hs <;> subst hs <;>
  cases b <;> simp only [propertyName, Except.ok.injEq, reduceCtorEq] at ht <;> subst ht <;> simp [Spec.samePurpose]

theorem activationNames_ok (l : List ActivationType) :
    (∃ s, activationNames l = .ok s) ↔ ∀ a ∈ l, a ≠ .SHIFTED_SOFTPLUS ∧ a ≠ .SHIFTED_SOFTPLUS_SQUARE := by
  have hone : ∀ a, (∃ s, activationName a = .ok s) ↔ (a ≠ .SHIFTED_SOFTPLUS ∧ a ≠ .SHIFTED_SOFTPLUS_SQUARE) := by
    intro a; cases a <;> simp [activationName]
  unfold activationNames
  induction l with
  | nil => simp [pure, Except.pure]
  | cons a l ih =>
    rw [List.mapM_cons]
    constructor
    · rintro ⟨s, h⟩
      obtain ⟨x, hx, h⟩ := except_bind_ok h
      obtain ⟨xs, hxs, h⟩ := except_bind_ok h
      intro b hb
      rcases List.mem_cons.1 hb with rfl | hb
      · exact (hone b).1 ⟨x, hx⟩
      · exact ih.1 ⟨xs, hxs⟩ b hb
    · intro h
      obtain ⟨x, hx⟩ := (hone a).2 (h a (by simp))
      obtain ⟨xs, hxs⟩ := ih.2 (fun b hb => h b (by simp [hb]))
      exact ⟨x :: xs, by rw [hx, hxs]; rfl⟩

/-- **C41, lost records.** Recording fails, after the run is over, exactly for: custom certificates, the shifted softplus activations, an
empty (not absent) list of control layers, or fewer than four component times; otherwise a row is written. -/
theorem C41_recordable (i : RunInfo) :
    (∃ row, recordRow i = .ok row) ↔
      i.cert ≠ .CUSTOM ∧ (∀ a ∈ i.acts, a ≠ .SHIFTED_SOFTPLUS ∧ a ≠ .SHIFTED_SOFTPLUS_SQUARE) ∧
      (i.cert = .STABLESAFE ∨ i.cert = .RAR → ∀ a ∈ i.altActs, a ≠ .SHIFTED_SOFTPLUS ∧ a ≠ .SHIFTED_SOFTPLUS_SQUARE) ∧
      i.ctrLayer ≠ some [] ∧ 4 ≤ i.times.length := by
  have hprop : (∃ s, propertyName i.cert = .ok s) ↔ i.cert ≠ .CUSTOM := by cases i.cert <;> simp [propertyName]
  constructor
  · rintro ⟨row, h⟩
    unfold recordRow at h
    obtain ⟨ctrl, hctrl, h⟩ := except_bind_ok h
    obtain ⟨alt, halt, h⟩ := except_bind_ok h
    obtain ⟨prop, hp, h⟩ := except_bind_ok h
    obtain ⟨acts, hacts, h⟩ := except_bind_ok h
    obtain ⟨t0, h0, h⟩ := except_bind_ok h
    obtain ⟨t1, h1, h⟩ := except_bind_ok h
    obtain ⟨t2, h2, h⟩ := except_bind_ok h
    obtain ⟨t3, h3, h⟩ := except_bind_ok h
    refine ⟨hprop.1 ⟨prop, hp⟩, (activationNames_ok _).1 ⟨acts, hacts⟩, fun hc => ?_, ?_, ?_⟩
    · rw [altCells, if_pos hc] at halt
      split at halt
      · rename_i a ha; exact (activationNames_ok _).1 ⟨a, ha⟩
      · cases halt
    · intro hn
      rw [ctrlCells, hn] at hctrl
      cases hctrl
    · unfold at? at h3
      split at h3
      · rename_i a ha
        have := (List.getElem?_eq_some_iff.1 ha).1
        omega
      · cases h3
  · rintro ⟨hc, ha, hb, hn, ht⟩
    obtain ⟨prop, hp⟩ := hprop.2 hc
    obtain ⟨acts, hacts⟩ := (activationNames_ok _).2 ha
    have hctrl : ∃ x, ctrlCells i = .ok x := by
      unfold ctrlCells
      cases hl : i.ctrLayer with
      | none => exact ⟨_, rfl⟩
      | some l =>
        cases hm : l.getLast? with
        | none => rw [List.getLast?_eq_none_iff] at hm; subst hm; exact absurd hl hn
        | some m => simp only [hm]; exact ⟨_, rfl⟩
    obtain ⟨ctrl, hctrl⟩ := hctrl
    have halt : ∃ x, altCells i = .ok x := by
      unfold altCells
      split_ifs with h
      · obtain ⟨a, ha⟩ := (activationNames_ok _).2 (hb h)
        exact ⟨_, by rw [ha]⟩
      · exact ⟨_, rfl⟩
    obtain ⟨alt, halt⟩ := halt
    have hat : ∀ k < 4, ∃ q, at? i.times k = .ok q := by
      intro k hk
      refine ⟨i.times[k]'(by omega), ?_⟩
      unfold at?
      rw [List.getElem?_eq_getElem (by omega)]
    obtain ⟨t0, h0⟩ := hat 0 (by omega)
    obtain ⟨t1, h1⟩ := hat 1 (by omega)
    obtain ⟨t2, h2⟩ := hat 2 (by omega)
    obtain ⟨t3, h3⟩ := hat 3 (by omega)
    unfold recordRow
    rw [hctrl, halt, hp, hacts, h0, h1, h2, h3]
    exact ⟨_, rfl⟩

/-- A concrete row. -/
example : ∃ row, recordRow ⟨.BARRIER, 2, some [8, 1], ["LINEAR"], true, "m", 167, "", "", 500, [5], [.SQUARE], [], [], "NONE", false, true,
    "CONTINUOUS", "DREAL", 3, 10, [1, 2, 3, 4]⟩ = .ok row :=
  (C41_recordable _).2 ⟨by simp, by simp, by simp, by simp, by simp⟩

end Fossil
