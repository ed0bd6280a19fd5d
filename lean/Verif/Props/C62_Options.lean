/- C62: the options of a configuration file. -/
import Verif.Options
import Verif.Lemmas.Config
import Mathlib.Data.List.Nodup
import Mathlib.Tactic

namespace Fossil

/-! ### the loop over the fields -/

theorem setFields_append (a b : Dict String Yaml) (cfg : Dict String Attr) :
    setFields (a ++ b) cfg = (setFields a cfg).bind (setFields b) := by
  induction a generalizing cfg with
  | nil => rfl
  | cons p a ih =>
    obtain ⟨k, v⟩ := p
    simp only [List.cons_append, setFields]
    split_ifs
    · rfl
    · cases hc : convertField k v with
      | error e => rfl
      | ok x => exact ih _
    · exact ih _

/-- After the loop every known field that the file has is set to the converted value, every other is as before; and the keys are unchanged. -/
theorem setFields_get {file : Dict String Yaml} {cfg cfg' : Dict String Attr} (hn : file.keys.Nodup) (h : setFields file cfg = .ok cfg') :
    (∀ k v, k ∈ defaultConfig.keys → file.get? k = some v → ∃ a, convertField k v = .ok a ∧ cfg'.get? k = some a) ∧
    (∀ k, file.get? k = none → cfg'.get? k = cfg.get? k) ∧
    ((∀ k ∈ defaultConfig.keys, k ∈ cfg.keys) → cfg'.keys = cfg.keys) := by
  induction file generalizing cfg with
  | nil =>
    cases h
    exact ⟨by simp, fun _ _ => rfl, fun _ => rfl⟩
  | cons p file ih =>
    obtain ⟨k, v⟩ := p
    simp only [Dict.keys, List.map_cons, List.nodup_cons] at hn
    have hk : Dict.get? file k = none := Dict.get?_eq_none_iff.2 hn.1
    simp only [setFields] at h
    split_ifs at h with h1 h2
    · cases hc : convertField k v with
      | error e => rw [hc] at h; cases h
      | ok a =>
        rw [hc] at h
        obtain ⟨i1, i2, i3⟩ := ih hn.2 h
        refine ⟨?_, ?_, ?_⟩
        · intro k' v' hk' hg
          by_cases e : k = k'
          · subst e
            simp only [Dict.get?_cons, if_true, Option.some.injEq] at hg
            subst hg
            exact ⟨a, hc, by rw [i2 k hk, Dict.get?_set_self]⟩
          · simp only [Dict.get?_cons, if_neg e] at hg
            exact i1 k' v' hk' hg
        · intro k' hg
          by_cases e : k = k'
          · simp [e] at hg
          · simp only [Dict.get?_cons, if_neg e] at hg
            rw [i2 k' hg, Dict.get?_set, if_neg e]
        · intro hsub
          have hm := hsub k h2
          have hkeys : (cfg.set k a).keys = cfg.keys := by rw [Dict.keys_set, if_pos hm]
          rw [i3 (by rw [hkeys]; exact hsub), hkeys]
    · obtain ⟨i1, i2, i3⟩ := ih hn.2 h
      refine ⟨?_, ?_, i3⟩
      · intro k' v' hk' hg
        by_cases e : k = k'
        · exact absurd (e ▸ hk') h2
        · simp only [Dict.get?_cons, if_neg e] at hg
          exact i1 k' v' hk' hg
      · intro k' hg
        by_cases e : k = k'
        · simp [e] at hg
        · simp only [Dict.get?_cons, if_neg e] at hg
          exact i2 k' hg

theorem setFields_all {file : Dict String Yaml} {cfg cfg' : Dict String Attr} (h : setFields file cfg = .ok cfg') :
    ∀ p ∈ file, reserved p.1 = false ∧ (p.1 ∈ defaultConfig.keys → ∃ a, convertField p.1 p.2 = .ok a) := by
  induction file generalizing cfg with
  | nil => simp
  | cons p file ih =>
    obtain ⟨k, v⟩ := p
    simp only [setFields] at h
    split_ifs at h with h1 h2
    · cases hc : convertField k v with
      | error e => rw [hc] at h; cases h
      | ok a =>
        rw [hc] at h
        intro q hq
        rcases List.mem_cons.1 hq with rfl | hq
        · exact ⟨by simpa using h1, fun _ => ⟨a, hc⟩⟩
        · exact ih h q hq
    · intro q hq
      rcases List.mem_cons.1 hq with rfl | hq
      · exact ⟨by simpa using h1, fun h3 => absurd h3 h2⟩
      · exact ih h q hq

theorem setFields_exists {file : Dict String Yaml} (h : ∀ p ∈ file, reserved p.1 = false ∧ (p.1 ∈ defaultConfig.keys → ∃ a, convertField p.1 p.2 = .ok a))
    (cfg : Dict String Attr) : ∃ cfg', setFields file cfg = .ok cfg' := by
  induction file generalizing cfg with
  | nil => exact ⟨cfg, rfl⟩
  | cons p file ih =>
    obtain ⟨k, v⟩ := p
    obtain ⟨h1, h2⟩ := h (k, v) (by simp)
    have ih' := ih fun q hq => h q (by simp [hq])
    simp only [setFields]
    rw [if_neg (by simp [h1])]
    split_ifs with h3
    · obtain ⟨a, ha⟩ := h2 h3
      obtain ⟨c, hc⟩ := ih' (cfg.set k a)
      refine ⟨c, ?_⟩
      dsimp only at ha
      rw [ha]
      exact hc
    · exact ih' cfg

theorem Dict.ext_of_nodup {α : Type} {d d' : Dict String α} (hk : d.keys = d'.keys) (hn : d.keys.Nodup) (hg : ∀ k, d.get? k = d'.get? k) : d = d' := by
  induction d generalizing d' with
  | nil =>
    cases d' with
    | nil => rfl
    | cons p d' => simp [Dict.keys] at hk
  | cons p d ih =>
    obtain ⟨k, v⟩ := p
    cases d' with
    | nil => simp [Dict.keys] at hk
    | cons p' d' =>
      obtain ⟨k', v'⟩ := p'
      simp only [Dict.keys, List.map_cons, List.cons.injEq, List.nodup_cons] at hk hn
      obtain ⟨rfl, hk⟩ := hk
      have hv := hg k
      simp only [Dict.get?_cons, if_true, Option.some.injEq] at hv
      subst hv
      congr 1
      refine ih hk hn.2 fun j => ?_
      by_cases e : k = j
      · subst e
        rw [Dict.get?_eq_none_iff.2 hn.1, Dict.get?_eq_none_iff.2]
        exact fun hm => hn.1 (by rw [hk]; exact hm)
      · simpa [e] using hg j

theorem default_nodup : defaultConfig.keys.Nodup := by decide +kernel

theorem get?_perm {α : Type} {d d' : Dict String α} (hp : d.Perm d') (hn : d.keys.Nodup) (k : String) : d.get? k = d'.get? k := by
  have hn' : d'.keys.Nodup := (hp.map Prod.fst).nodup_iff.1 hn
  cases h : d.get? k with
  | none =>
    symm
    rw [Dict.get?_eq_none_iff] at h ⊢
    exact fun hm => h ((hp.map Prod.fst).mem_iff.2 hm)
  | some v => exact (Dict.mem_get?_of_nodup hn' (hp.mem_iff.1 (Dict.get?_eq_some_mem h))).symm

theorem readOptions_perm {file file' : Dict String Yaml} (hp : file.Perm file') (hn : file.keys.Nodup) {cfg : Dict String Attr}
    (h : readOptions file = .ok cfg) : readOptions file' = .ok cfg := by
  have hn' : file'.keys.Nodup := (hp.map Prod.fst).nodup_iff.1 hn
  unfold readOptions at h ⊢
  split_ifs at h with hr
  have hr' : requiredFields.all (file'.keys.contains ·) = true := by
    rw [List.all_eq_true] at hr ⊢
    intro k hk
    have := hr k hk
    simp only [List.contains_iff_mem] at this ⊢
    exact (hp.map Prod.fst).mem_iff.1 this
  rw [if_pos hr']
  obtain ⟨cfg', hc⟩ := setFields_exists (fun p hpm => setFields_all h p (hp.mem_iff.2 hpm)) defaultConfig
  rw [hc]
  congr 1
  obtain ⟨a1, a2, a3⟩ := setFields_get hn h
  obtain ⟨b1, b2, b3⟩ := setFields_get hn' hc
  refine Dict.ext_of_nodup (by rw [a3 (fun _ h => h), b3 (fun _ h => h)]) (by rw [b3 (fun _ h => h)]; exact default_nodup) fun k => ?_
  cases hg : file.get? k with
  | none => rw [a2 k hg, b2 k (by rw [← get?_perm hp hn]; exact hg)]
  | some v =>
    by_cases hk : k ∈ defaultConfig.keys
    · obtain ⟨a, ha, ha'⟩ := a1 k v hk hg
      obtain ⟨b, hb, hb'⟩ := b1 k v hk (by rw [← get?_perm hp hn]; exact hg)
      rw [ha] at hb
      rw [ha', hb', Except.ok.inj hb]
    · have e1 : k ∉ cfg.keys := by rw [a3 (fun _ h => h)]; exact hk
      have e2 : k ∉ cfg'.keys := by rw [b3 (fun _ h => h)]; exact hk
      rw [Dict.get?_eq_none_iff.2 e1, Dict.get?_eq_none_iff.2 e2]

/-! ### reading a file depends on the file only through its options and three fields -/

theorem configText_congr {file file' : Dict String Yaml} (h1 : file.get? "SYSTEM" = file'.get? "SYSTEM") (h2 : file.get? "DOMAINS" = file'.get? "DOMAINS")
    (h3 : file.get? "N_DATA" = file'.get? "N_DATA") (cfg : Dict String Attr) : configText file cfg = configText file' cfg := by
  have e1 : systemOf file = systemOf file' := by simp only [systemOf, Dict.get, h1]
  have e2 : domainsOf file = domainsOf file' := by simp only [domainsOf, Dict.get, h2]
  have e3 : nDataOf file = nDataOf file' := by simp only [nDataOf, h3]
  simp only [configText, e1, e2, e3]

theorem readFile_congr {file file' : Dict String Yaml} (h0 : readOptions file = readOptions file') (h1 : file.get? "SYSTEM" = file'.get? "SYSTEM")
    (h2 : file.get? "DOMAINS" = file'.get? "DOMAINS") (h3 : file.get? "N_DATA" = file'.get? "N_DATA") : readFile file = readFile file' := by
  simp only [readFile, h0, configText_congr h1 h2 h3]

/-- **C62, order.** The order of the fields in the file does not matter: a file that is accepted is accepted with the same result in any order. -/
theorem C62_order_irrelevant (file file' : Dict String Yaml) (hp : file.Perm file') (hn : file.keys.Nodup) (s : Start) (h : readFile file = .ok s) :
    readFile file' = .ok s := by
  have hopt : ∃ cfg, readOptions file = .ok cfg := by
    cases hc : readOptions file with
    | ok cfg => exact ⟨cfg, rfl⟩
    | error e =>
      simp only [readFile, hc] at h
      cases h
  obtain ⟨cfg, hc⟩ := hopt
  rw [← h]
  refine (readFile_congr ?_ (get?_perm hp hn _) (get?_perm hp hn _) (get?_perm hp hn _)).symm
  rw [hc, readOptions_perm hp hn hc]

theorem get?_insert {α : Type} (a b : Dict String α) (k : String) (v : α) (j : String) (hj : k ≠ j) :
    Dict.get? (a ++ (k, v) :: b) j = Dict.get? (a ++ b) j := by
  induction a with
  | nil => simp [hj]
  | cons p a ih =>
    obtain ⟨k', v'⟩ := p
    simp only [List.cons_append, Dict.get?_cons, ih]

/-- **C62, unknown fields.** A field that is not an option (for example a misspelt one) has no effect whatever: the outcome, accepted or not, is that of the
file without it. -/
theorem C62_unknown_field_ignored (a b : Dict String Yaml) (k : String) (v : Yaml) (hk : k ∉ defaultConfig.keys) (hr : reserved k = false) :
    readFile (a ++ (k, v) :: b) = readFile (a ++ b) := by
  have hne : ∀ j ∈ defaultConfig.keys, k ≠ j := fun j hj e => hk (e ▸ hj)
  refine readFile_congr ?_ (get?_insert _ _ _ _ _ (hne _ (by decide +kernel))) (get?_insert _ _ _ _ _ (hne _ (by decide +kernel)))
    (get?_insert _ _ _ _ _ (hne _ (by decide +kernel)))
  have hall : requiredFields.all ((Dict.keys (a ++ (k, v) :: b)).contains ·) = requiredFields.all ((Dict.keys (a ++ b)).contains ·) := by
    rw [Bool.eq_iff_iff, List.all_eq_true, List.all_eq_true]
    refine forall₂_congr fun j hj => ?_
    have hjk : j ≠ k := by
      rintro rfl
      refine hk ?_
      revert hj
      simp only [requiredFields, List.mem_cons, List.not_mem_nil, or_false]
      rintro (rfl | rfl | rfl | rfl) <;> decide +kernel
    simp [Dict.keys, hjk]
  unfold readOptions
  rw [hall]
  split_ifs
  · rw [setFields_append, setFields_append]
    cases setFields a defaultConfig with
    | error e => rfl
    | ok c =>
      simp only [Except.bind, setFields, hr, hk, if_false, Bool.false_eq_true]
  · rfl

/-- **C62, required fields.** Without SYSTEM, CERTIFICATE, DOMAINS or TIME_DOMAIN every file is rejected with a ValueError. -/
theorem C62_required_fields (file : Dict String Yaml) (k : String) (hk : k = "SYSTEM" ∨ k = "CERTIFICATE" ∨ k = "DOMAINS" ∨ k = "TIME_DOMAIN")
    (hf : file.get? k = none) : readFile file = .error .valueError := by
  have : readOptions file = .error .valueError := by
    unfold readOptions
    rw [if_neg]
    rw [List.all_eq_true]
    intro h
    have hm : k ∈ requiredFields := by
      rcases hk with rfl | rfl | rfl | rfl <;> decide +kernel
    have := h k hm
    rw [List.contains_iff_mem] at this
    exact Dict.get?_eq_none_iff.1 hf this
  simp only [readFile, this]
  rfl

/-- The documentation: TIME_DOMAIN may be left out and is then CONTINUOUS. -/
def TimeDomainOptional : Prop :=
  ∀ (file : Dict String Yaml) (s : Start), readFile (("TIME_DOMAIN", .text "CONTINUOUS") :: file) = .ok s → "TIME_DOMAIN" ∉ file.keys →
    readFile file = .ok s

/-! ### what is used -/

theorem enumOf_ok {α : Type} {name : α → String} {all : List α} {v : Yaml} {a : α} (h : enumOf name all v = .ok a) :
    ∃ s, v = .text s ∧ s.toUpper = name a := by
  cases v <;> simp only [enumOf] at h <;> try cases h
  rename_i s
  cases hf : all.find? (fun a => name a = s.toUpper) with
  | none => rw [hf] at h; cases h
  | some b =>
    rw [hf] at h
    have hb := List.find?_some hf
    simp only [decide_eq_true_eq] at hb
    exact ⟨s, rfl, by rw [← Except.ok.inj h]; exact hb.symm⟩

/-- The value in effect for a field. -/
def Spec.inEffect (file : Dict String Yaml) (k : String) (default : Yaml) : Yaml := (file.get? k).getD default

/-- A text naming a member of an enumeration, in any case. -/
def Spec.Names (v : Yaml) (name : String) : Prop := ∃ s, v = .text s ∧ s.toUpper = name

theorem readOptions_get {file : Dict String Yaml} {cfg : Dict String Attr} (hn : file.keys.Nodup) (h : readOptions file = .ok cfg) (k : String) (d : Attr)
    (hd : defaultConfig.get? k = some d) :
    (file.get? k = none ∧ cfg.get k = .ok d) ∨ ∃ v a, file.get? k = some v ∧ convertField k v = .ok a ∧ cfg.get k = .ok a := by
  unfold readOptions at h
  split_ifs at h
  obtain ⟨a1, a2, -⟩ := setFields_get hn h
  have hk : k ∈ defaultConfig.keys := Dict.get?_isSome_iff.1 (by rw [hd]; rfl)
  cases hg : file.get? k with
  | none => exact Or.inl ⟨rfl, by unfold Dict.get; rw [a2 k hg, hd]⟩
  | some v =>
    obtain ⟨a, h1, h2⟩ := a1 k v hk hg
    exact Or.inr ⟨v, a, rfl, h1, by unfold Dict.get; rw [h2]⟩

/-- A plain (not converted) option. -/
theorem raw_option {file : Dict String Yaml} {cfg : Dict String Attr} (hn : file.keys.Nodup) (h : readOptions file = .ok cfg) {k : String} {d : Yaml}
    (hd : defaultConfig.get? k = some (.raw d)) (hc : ∀ v, convertField k v = .ok (.raw v)) {a : Attr} (ha : cfg.get k = .ok a) :
    a = .raw (Spec.inEffect file k d) := by
  unfold Spec.inEffect
  rcases readOptions_get hn h k _ hd with ⟨h1, h2⟩ | ⟨v, b, h1, h2, h3⟩
  · rw [h1]
    rw [ha] at h2
    simpa using Except.ok.inj h2
  · rw [h1]
    rw [hc] at h2
    rw [ha] at h3
    rw [Except.ok.inj h3, ← Except.ok.inj h2]
    rfl

/-- An option naming a member of an enumeration. -/
theorem enum_option {α : Type} {file : Dict String Yaml} {cfg : Dict String Attr} (hn : file.keys.Nodup) (h : readOptions file = .ok cfg) {k : String}
    {name : α → String} {all : List α} {mk : α → Attr} {d : α} {s : String} (hinj : ∀ x y, mk x = mk y → x = y)
    (hd : defaultConfig.get? k = some (mk d)) (hs : s.toUpper = name d) (hc : ∀ v, convertField k v = mk <$> enumOf name all v) {x : α}
    (ha : cfg.get k = .ok (mk x)) : Spec.Names (Spec.inEffect file k (.text s)) (name x) := by
  unfold Spec.inEffect
  rcases readOptions_get hn h k _ hd with ⟨h1, h2⟩ | ⟨v, b, h1, h2, h3⟩
  · rw [h1]
    rw [ha] at h2
    have := hinj _ _ (Except.ok.inj h2)
    exact ⟨s, rfl, by rw [hs, this]⟩
  · rw [h1]
    rw [hc] at h2
    rw [ha] at h3
    cases he : enumOf name all v with
    | error e => rw [he] at h2; cases h2
    | ok y =>
      rw [he] at h2
      have e1 : mk y = b := Except.ok.inj h2
      have e2 := hinj _ _ ((Except.ok.inj h3).trans e1.symm)
      rw [e2]
      exact enumOf_ok he

theorem required_some {file : Dict String Yaml} {cfg : Dict String Attr} (h : readOptions file = .ok cfg) (k : String) (hk : k ∈ requiredFields) :
    ∃ v, file.get? k = some v := by
  unfold readOptions at h
  split_ifs at h with hr
  rw [List.all_eq_true] at hr
  have := hr k hk
  rw [List.contains_iff_mem] at this
  exact Option.isSome_iff_exists.1 (Dict.get?_isSome_iff.2 this)

/-- The options that `ConfigText` collects, as the file or the documented default says. -/
structure Spec.OptionsOf (file : Dict String Yaml) (c : ConfigText) : Prop where
  system : file.get? "SYSTEM" = some (.texts c.system)
  domains : file.get? "DOMAINS" = some (.textMap c.domains)
  nData : file.get? "N_DATA" = match c.nData with
    | none => none
    | some (.int N) => some (.int N)
    | some (.dict d) => some (.countMap d)
  certificate : Spec.Names (Spec.inEffect file "CERTIFICATE" .null) c.cert.name
  timeDomain : Spec.Names (Spec.inEffect file "TIME_DOMAIN" .null) (if c.check.discrete then "DISCRETE" else "CONTINUOUS")
  verifier : Spec.Names (Spec.inEffect file "VERIFIER" (.text "Z3"))
    (match c.lib with | .z3 => "Z3" | .dreal => "DREAL" | .cvc5 => "CVC5" | .sympy => "NONE")
  factors : Spec.Names (Spec.inEffect file "FACTORS" (.text "NONE")) (if c.quad then "QUADRATIC" else "NONE")
  nVars : Spec.inEffect file "N_VARS" (.int 0) = .int c.nVars
  llo : Spec.inEffect file "LLO" (.bool false) = .bool c.llo
  rounding : Spec.inEffect file "ROUNDING" (.int 3) = .int c.rounding
  maxIters : Spec.inEffect file "CEGIS_MAX_ITERS" (.int 10) = .int c.maxIters
  learningRate : Spec.inEffect file "LEARNING_RATE" (.num (1 / 10)) = .num c.check.learningRate ∨
    ∃ z : ℤ, Spec.inEffect file "LEARNING_RATE" (.num (1 / 10)) = .int z ∧ c.check.learningRate = z
  maxTime : (file.get? "CEGIS_MAX_TIME_S" = none ∧ c.check.maxTimePositive = true) ∨
    (∃ z : ℤ, file.get? "CEGIS_MAX_TIME_S" = some (.int z) ∧ (c.check.maxTimePositive = true ↔ 0 < z)) ∨
    ∃ q : ℚ, file.get? "CEGIS_MAX_TIME_S" = some (.num q) ∧ (c.check.maxTimePositive = true ↔ 0 < q)

theorem configText_options {file : Dict String Yaml} {cfg : Dict String Attr} (hn : file.keys.Nodup) (ho : readOptions file = .ok cfg) {c : ConfigText}
    (h : configText file cfg = .ok c) : Spec.OptionsOf file c := by
  simp only [configText] at h
  obtain ⟨aV, hV, h⟩ := except_bind_ok h
  obtain ⟨vn, hvn, h⟩ := except_bind_ok h
  obtain ⟨lib, hlib, h⟩ := except_bind_ok h
  obtain ⟨aN, hN, h⟩ := except_bind_ok h
  obtain ⟨n, hnn, h⟩ := except_bind_ok h
  obtain ⟨aC, hC, h⟩ := except_bind_ok h
  obtain ⟨ct, hct, h⟩ := except_bind_ok h
  obtain ⟨sys, hsys, h⟩ := except_bind_ok h
  obtain ⟨doms, hdoms, h⟩ := except_bind_ok h
  obtain ⟨nd, hnd, h⟩ := except_bind_ok h
  obtain ⟨aL, hL, h⟩ := except_bind_ok h
  obtain ⟨lr, hlr, h⟩ := except_bind_ok h
  obtain ⟨aM, hM, h⟩ := except_bind_ok h
  obtain ⟨mt, hmt, h⟩ := except_bind_ok h
  obtain ⟨aT, hT, h⟩ := except_bind_ok h
  obtain ⟨td, htd, h⟩ := except_bind_ok h
  obtain ⟨aO, hO, h⟩ := except_bind_ok h
  obtain ⟨llo, hllo, h⟩ := except_bind_ok h
  obtain ⟨aR, hR, h⟩ := except_bind_ok h
  obtain ⟨rnd, hrnd, h⟩ := except_bind_ok h
  obtain ⟨aF, hF, h⟩ := except_bind_ok h
  obtain ⟨quad, hquad, h⟩ := except_bind_ok h
  obtain ⟨aI, hI, h⟩ := except_bind_ok h
  obtain ⟨it, hit, h⟩ := except_bind_ok h
  cases h
  refine ⟨?_, ?_, ?_, ?_, ?_, ?_, ?_, ?_, ?_, ?_, ?_, ?_, ?_⟩ <;> dsimp only
  · simp only [systemOf] at hsys
    obtain ⟨y, hy, hsys⟩ := except_bind_ok hsys
    unfold Dict.get at hy
    cases hf : file.get? "SYSTEM" with
    | none => rw [hf] at hy; cases hy
    | some v =>
      rw [hf] at hy; cases hy
      cases y <;> simp at hsys
      rw [hsys]
  · simp only [domainsOf] at hdoms
    obtain ⟨y, hy, hdoms⟩ := except_bind_ok hdoms
    unfold Dict.get at hy
    cases hf : file.get? "DOMAINS" with
    | none => rw [hf] at hy; cases hy
    | some v =>
      rw [hf] at hy; cases hy
      cases y <;> simp at hdoms
      rw [hdoms]
  · unfold nDataOf at hnd
    cases hf : file.get? "N_DATA" with
    | none => rw [hf] at hnd; cases hnd; rfl
    | some v =>
      rw [hf] at hnd
      cases v <;> simp at hnd
      · rename_i z
        by_cases hz : 0 ≤ z
        · rw [if_pos hz] at hnd
          cases hnd
          simp only [Int.toNat_of_nonneg hz]
        · rw [if_neg hz] at hnd; cases hnd
      · subst hnd; rfl
  · cases aC <;> simp [Attr.getCert] at hct
    subst hct
    obtain ⟨v, h1⟩ := required_some ho "CERTIFICATE" (by decide +kernel)
    have := enum_option (s := "LYAPUNOV") (name := CertType.name) (all := CertType.all) (d := .LYAPUNOV) hn ho (fun x y => Attr.cert.inj)
      (by decide +kernel) (by decide +kernel) (fun v => rfl) hC
    rwa [Spec.inEffect, h1] at this ⊢
  · cases aT <;> simp [Attr.getTime] at htd
    subst htd
    obtain ⟨v, h1⟩ := required_some ho "TIME_DOMAIN" (by decide +kernel)
    have := enum_option (s := "CONTINUOUS") (name := timeName) (all := [false, true]) (d := false) hn ho (fun x y => Attr.time.inj)
      (by decide +kernel) (by decide +kernel) (fun v => rfl) hT
    rwa [Spec.inEffect, h1] at this ⊢
  · cases aV <;> simp [Attr.getVerifier] at hvn
    subst hvn
    have := enum_option (s := "Z3") (name := VName.name) (all := VName.all) (d := .Z3) hn ho (fun x y => Attr.verifier.inj)
      (by decide +kernel) (by decide +kernel) (fun v => rfl) hV
    revert this hlib
    clear hV
    generalize hx : (‹VName› : VName) = x
    intro hlib this
    cases x <;> simp [VName.lib] at hlib <;> subst hlib <;> exact this
  · cases aF <;> simp [Attr.getFactors] at hquad
    subst hquad
    exact enum_option (s := "NONE") (name := factorsName) (all := [true, false]) (d := false) hn ho (fun x y => Attr.factors.inj)
      (by decide +kernel) (by decide +kernel) (fun v => rfl) hF
  · have e := raw_option (d := .int 0) hn ho (by decide +kernel) (fun v => rfl) hN
    subst e
    revert hnn
    generalize Spec.inEffect file "N_VARS" (.int 0) = w
    intro hnn
    cases w <;> simp [Attr.nat] at hnn
    rename_i z
    by_cases hz : 0 ≤ z
    · rw [if_pos hz] at hnn
      rw [← Except.ok.inj hnn, Int.toNat_of_nonneg hz]
    · rw [if_neg hz] at hnn; cases hnn
  · have e := raw_option (d := .bool false) hn ho (by decide +kernel) (fun v => rfl) hO
    subst e
    revert hllo
    generalize Spec.inEffect file "LLO" (.bool false) = w
    intro hllo
    cases w <;> simp [Attr.bool] at hllo
    rw [hllo]
  · have e := raw_option (d := .int 3) hn ho (by decide +kernel) (fun v => rfl) hR
    subst e
    revert hrnd
    generalize Spec.inEffect file "ROUNDING" (.int 3) = w
    intro hrnd
    cases w <;> simp [Attr.int] at hrnd
    rw [hrnd]
  · have e := raw_option (d := .int 10) hn ho (by decide +kernel) (fun v => rfl) hI
    subst e
    revert hit
    generalize Spec.inEffect file "CEGIS_MAX_ITERS" (.int 10) = w
    intro hit
    cases w <;> simp [Attr.int] at hit
    rw [hit]
  · have e := raw_option (d := .num (1 / 10)) hn ho (by decide +kernel) (fun v => rfl) hL
    subst e
    revert hlr
    generalize Spec.inEffect file "LEARNING_RATE" (.num (1 / 10)) = w
    intro hlr
    cases w <;> simp [Attr.rat] at hlr
    · exact Or.inr ⟨_, rfl, hlr.symm⟩
    · exact Or.inl (by rw [hlr])
  · rcases readOptions_get hn ho "CEGIS_MAX_TIME_S" .inf (by decide +kernel) with ⟨h1, h2⟩ | ⟨v, a, h1, h2, h3⟩
    · rw [hM] at h2
      rw [Except.ok.inj h2] at hmt
      exact Or.inl ⟨h1, (Except.ok.inj hmt).symm⟩
    · rw [hM] at h3
      have e : a = .raw v := (Except.ok.inj h2).symm
      rw [Except.ok.inj h3, e] at hmt
      rw [h1]
      cases v <;> simp [Attr.positive] at hmt
      · exact Or.inr (Or.inl ⟨_, rfl, by rw [← hmt]; simp⟩)
      · exact Or.inr (Or.inr ⟨_, rfl, by rw [← hmt]; simp⟩)

/-- The names an option lists: a list of texts, or the keys of a mapping; a single text is taken letter by letter. -/
inductive Spec.Lists : Yaml → List String → Prop where
  | texts (l : List String) : Spec.Lists (.texts l) l
  | none : Spec.Lists (.ints []) []
  | text (s : String) : Spec.Lists (.text s) (s.toList.map String.singleton)
  | textMap (d : List (String × String)) : Spec.Lists (.textMap d) (d.map (·.1))
  | countMap (d : List (String × ℕ)) : Spec.Lists (.countMap d) (d.map (·.1))

/-- The activations an option names, all of them and in this order. -/
def Spec.NamesAll (v : Yaml) (acts : List ActivationType) : Prop :=
  ∃ l : List String, Spec.Lists v l ∧ l.map String.toUpper = acts.map ActivationType.name

theorem items_lists {v : Yaml} {t : List String} (h : v.items = .ok (t.map .text)) : Spec.Lists v t := by
  have hinj : Function.Injective Yaml.text := fun a b h => by cases h; rfl
  cases v with
  | texts l =>
    have := List.map_injective_iff.2 hinj (Except.ok.inj h)
    subst this; exact .texts _
  | ints l =>
    have := Except.ok.inj h
    cases l with
    | nil => cases t with
      | nil => exact .none
      | cons a t => cases this
    | cons a l => cases t with
      | nil => cases this
      | cons b t => simp at this
  | text s =>
    have h := Except.ok.inj h
    have : s.toList.map String.singleton = t := by
      apply List.map_injective_iff.2 hinj
      rw [List.map_map]; exact h
    subst this; exact .text _
  | textMap d =>
    have := List.map_injective_iff.2 hinj (Except.ok.inj h)
    subst this; exact .textMap _
  | countMap d =>
    have := List.map_injective_iff.2 hinj (Except.ok.inj h)
    subst this; exact .countMap _
  | _ => cases h

/-- The network options, as the file or the documented default says. -/
structure Spec.NetOptionsOf (file : Dict String Yaml) (o : NetOpts) : Prop where
  hidden : Spec.inEffect file "N_HIDDEN_NEURONS" (.ints [10]) = .ints (o.hidden.map Int.ofNat)
  acts : Spec.NamesAll (Spec.inEffect file "ACTIVATION" (.texts ["SQUARE"])) o.acts
  hiddenAlt : Spec.inEffect file "N_HIDDEN_NEURONS_ALT" (.ints [10]) = .ints (o.hiddenAlt.map Int.ofNat)
  actsAlt : Spec.NamesAll (Spec.inEffect file "ACTIVATION_ALT" (.texts ["SQUARE"])) o.actsAlt

theorem mapM_enum {l : List Yaml} {acts : List ActivationType} (h : l.mapM (enumOf ActivationType.name ActivationType.all) = .ok acts) :
    ∃ t : List String, l = t.map .text ∧ t.map String.toUpper = acts.map ActivationType.name := by
  induction l generalizing acts with
  | nil =>
    cases h
    exact ⟨[], rfl, rfl⟩
  | cons v l ih =>
    rw [List.mapM_cons] at h
    obtain ⟨a, ha, h⟩ := except_bind_ok h
    obtain ⟨as, has, h⟩ := except_bind_ok h
    cases h
    obtain ⟨s, rfl, hs⟩ := enumOf_ok ha
    obtain ⟨t, rfl, ht⟩ := ih has
    exact ⟨s :: t, rfl, by simp [hs, ht]⟩

theorem acts_option {file : Dict String Yaml} {cfg : Dict String Attr} (hn : file.keys.Nodup) (ho : readOptions file = .ok cfg) {k : String}
    (hd : defaultConfig.get? k = some (.acts [.SQUARE])) (hc : ∀ v, convertField k v = Attr.acts <$> readActivations v) {l : List ActivationType}
    (ha : cfg.get k = .ok (.acts l)) : Spec.NamesAll (Spec.inEffect file k (.texts ["SQUARE"])) l := by
  unfold Spec.inEffect
  rcases readOptions_get hn ho k _ hd with ⟨h1, h2⟩ | ⟨v, b, h1, h2, h3⟩
  · rw [h1]
    rw [ha] at h2
    have := Attr.acts.inj (Except.ok.inj h2)
    subst this
    exact ⟨["SQUARE"], .texts _, by decide +kernel⟩
  · rw [h1]
    rw [hc] at h2
    rw [ha] at h3
    cases he : readActivations v with
    | error e => rw [he] at h2; cases h2
    | ok y =>
      rw [he] at h2
      have e1 : Attr.acts y = b := Except.ok.inj h2
      have e2 := Attr.acts.inj ((Except.ok.inj h3).trans e1.symm)
      subst e2
      simp only [readActivations] at he
      obtain ⟨its, hi, he⟩ := except_bind_ok he
      obtain ⟨t, rfl, ht⟩ := mapM_enum he
      exact ⟨t, items_lists hi, ht⟩

theorem sizes_option {file : Dict String Yaml} {cfg : Dict String Attr} (hn : file.keys.Nodup) (ho : readOptions file = .ok cfg) {k : String} {d : Yaml}
    (hd : defaultConfig.get? k = some (.raw d)) (hc : ∀ v, convertField k v = .ok (.raw v)) {a : Attr} {l : List ℕ}
    (ha : cfg.get k = .ok a) (hs : a.sizes = .ok l) : Spec.inEffect file k d = .ints (l.map Int.ofNat) := by
  have e := raw_option hn ho hd hc ha
  subst e
  revert hs
  generalize Spec.inEffect file k d = w
  intro hs
  cases w <;> simp only [Attr.sizes] at hs <;> try cases hs
  rename_i l'
  split_ifs at hs with hz
  rw [← Except.ok.inj hs]
  rw [List.all_eq_true] at hz
  congr 1
  rw [List.map_map]
  conv_lhs => rw [← List.map_id l']
  refine List.map_congr_left fun z hm => ?_
  have := hz z hm
  simp only [decide_eq_true_eq] at this
  simp only [id, Function.comp]
  exact (Int.toNat_of_nonneg this).symm

theorem netOpts_options {file : Dict String Yaml} {cfg : Dict String Attr} (hn : file.keys.Nodup) (ho : readOptions file = .ok cfg) {o : NetOpts}
    (h : netOpts cfg = .ok o) : Spec.NetOptionsOf file o := by
  simp only [netOpts] at h
  obtain ⟨a1, h1, h⟩ := except_bind_ok h
  obtain ⟨l1, g1, h⟩ := except_bind_ok h
  obtain ⟨a2, h2, h⟩ := except_bind_ok h
  obtain ⟨l2, g2, h⟩ := except_bind_ok h
  obtain ⟨a3, h3, h⟩ := except_bind_ok h
  obtain ⟨l3, g3, h⟩ := except_bind_ok h
  obtain ⟨a4, h4, h⟩ := except_bind_ok h
  obtain ⟨l4, g4, h⟩ := except_bind_ok h
  cases h
  refine ⟨sizes_option hn ho (by decide +kernel) (fun v => rfl) h1 g1, ?_, sizes_option hn ho (by decide +kernel) (fun v => rfl) h3 g3, ?_⟩
  · cases a2 <;> simp [Attr.getActs] at g2
    subst g2
    exact acts_option hn ho (by decide +kernel) (fun v => rfl) h2
  · cases a4 <;> simp [Attr.getActs] at g4
    subst g4
    exact acts_option hn ho (by decide +kernel) (fun v => rfl) h4

theorem readFile_inv {file : Dict String Yaml} {s : Start} (h : readFile file = .ok s) :
    ∃ cfg c l cand, readOptions file = .ok cfg ∧ configText file cfg = .ok c ∧ cfg.get "CTRLAYER" = .ok l ∧ cfg.get "CANDIDATE" = .ok cand ∧
      ((l = .raw .null ∧ cand = .raw .null ∧ ∃ o, netOpts cfg = .ok o ∧ s = .synth c o) ∨
       (l = .raw .null ∧ ∃ t, cand = .raw (.texts t) ∧ s = .verify c t) ∨
       (l ≠ .raw .null ∧ cand = .raw .null ∧ ∃ o ls ca as, netOpts cfg = .ok o ∧ l.sizes = .ok ls ∧ cfg.get "CTRLACTIVATION" = .ok ca ∧
        ca.getActs = .ok as ∧ s = .control ⟨c, ls, as⟩ o)) := by
  simp only [readFile] at h
  obtain ⟨cfg, ho, h⟩ := except_bind_ok h
  obtain ⟨c, hc, h⟩ := except_bind_ok h
  obtain ⟨l, hl, h⟩ := except_bind_ok h
  obtain ⟨cand, hcand, h⟩ := except_bind_ok h
  refine ⟨cfg, c, l, cand, ho, hc, hl, hcand, ?_⟩
  split at h
  · obtain ⟨o, h1, h⟩ := except_bind_ok h
    cases h
    exact Or.inl ⟨rfl, rfl, o, h1, rfl⟩
  · cases h
    exact Or.inr (Or.inl ⟨rfl, _, rfl, rfl⟩)
  · rename_i hne1
    obtain ⟨o, h1, h⟩ := except_bind_ok h
    obtain ⟨ls, h2, h⟩ := except_bind_ok h
    obtain ⟨ca, h3, h⟩ := except_bind_ok h
    obtain ⟨as, h4, h⟩ := except_bind_ok h
    cases h
    refine Or.inr (Or.inr ⟨?_, rfl, o, ls, ca, as, h1, h2, h3, h4, rfl⟩)
    intro e
    exact hne1 e
  · cases h

/-- **C62, options used.** If a file is accepted for synthesis without controller, the run uses for every option what the file says, or else the documented
default; enumeration members may be written in any case. -/
theorem C62_options_used (file : Dict String Yaml) (hn : file.keys.Nodup) (c : ConfigText) (o : NetOpts) (h : readFile file = .ok (.synth c o)) :
    Spec.OptionsOf file c ∧ Spec.NetOptionsOf file o ∧
    Spec.inEffect file "CTRLAYER" .null = .null ∧ Spec.inEffect file "CANDIDATE" .null = .null := by
  obtain ⟨cfg, c', l, cand, ho, hc, hl, hcand, ⟨rfl, rfl, o', h1, e⟩ | ⟨-, t, -, e⟩ | ⟨-, -, o', ls, ca, as, -, -, -, -, e⟩⟩ := readFile_inv h
  · cases e
    exact ⟨configText_options hn ho hc, netOpts_options hn ho h1,
      (Attr.raw.inj (raw_option hn ho (d := .null) (by decide +kernel) (fun v => rfl) hl)).symm,
      (Attr.raw.inj (raw_option hn ho (d := .null) (by decide +kernel) (fun v => rfl) hcand)).symm⟩
  · cases e
  · cases e

/-- **C62, options used, with controller.** The same for a file with CTRLAYER. -/
theorem C62_control_options_used (file : Dict String Yaml) (hn : file.keys.Nodup) (c : ControlConfig) (o : NetOpts) (h : readFile file = .ok (.control c o)) :
    Spec.OptionsOf file c.base ∧ Spec.NetOptionsOf file o ∧ file.get? "CTRLAYER" = some (.ints (c.ctrlayer.map Int.ofNat)) ∧
    ∃ v, file.get? "CTRLACTIVATION" = some v ∧ Spec.NamesAll v c.ctrlacts := by
  obtain ⟨cfg, c', l, cand, ho, hc, hl, hcand, ⟨-, -, o', -, e⟩ | ⟨-, t, -, e⟩ | ⟨hne, -, o', ls, ca, as, h1, h2, h3, h4, e⟩⟩ := readFile_inv h
  · cases e
  · cases e
  · cases e
    refine ⟨configText_options hn ho hc, netOpts_options hn ho h1, ?_, ?_⟩
    · have := sizes_option hn ho (d := .null) (by decide +kernel) (fun v => rfl) hl h2
      unfold Spec.inEffect at this
      cases hg : file.get? "CTRLAYER" with
      | none => rw [hg] at this; cases this
      | some v => rw [hg] at this; exact congrArg some this
    · rcases readOptions_get hn ho "CTRLACTIVATION" (.raw .null) (by decide +kernel) with ⟨-, g2⟩ | ⟨v, b, g1, g2, g3⟩
      · rw [h3] at g2
        rw [Except.ok.inj g2] at h4
        cases h4
      · refine ⟨v, g1, ?_⟩
        rw [h3] at g3
        rw [Except.ok.inj g3] at h4
        cases b <;> simp [Attr.getActs] at h4
        subst h4
        have g2' : Attr.acts <$> readActivations v = .ok (.acts ‹_›) := g2
        cases he : readActivations v with
        | error e => rw [he] at g2'; cases g2'
        | ok y =>
          rw [he] at g2'
          have e2 := Attr.acts.inj (Except.ok.inj g2')
          subst e2
          simp only [readActivations] at he
          obtain ⟨its, hi, he⟩ := except_bind_ok he
          obtain ⟨t, rfl, ht⟩ := mapM_enum he
          exact ⟨t, items_lists hi, ht⟩

/-- **C62, options used, with candidate.** The same for a file with CANDIDATE. -/
theorem C62_verify_options_used (file : Dict String Yaml) (hn : file.keys.Nodup) (c : ConfigText) (cand : List String)
    (h : readFile file = .ok (.verify c cand)) : Spec.OptionsOf file c ∧ file.get? "CANDIDATE" = some (.texts cand) := by
  obtain ⟨cfg, c', l, cd, ho, hc, hl, hcand, ⟨-, -, o', -, e⟩ | ⟨-, t, rfl, e⟩ | ⟨hne, -, o', ls, ca, as, h1, h2, h3, h4, e⟩⟩ := readFile_inv h
  · cases e
  · cases e
    refine ⟨configText_options hn ho hc, ?_⟩
    have := Attr.raw.inj (raw_option hn ho (d := .null) (by decide +kernel) (fun v => rfl) hcand)
    unfold Spec.inEffect at this
    cases hg : file.get? "CANDIDATE" with
    | none => rw [hg] at this; cases this
    | some v => rw [hg] at this; exact congrArg some this.symm
  · cases e

/-! ### enumerations -/

/-- The names the options with an enumeration type may have (user-guide.md, consts.py). -/
def Spec.members (k : String) : List String :=
  if k = "CERTIFICATE" then ["BARRIER", "BARRIERALT", "LYAPUNOV", "ROA", "RWA", "RSWA", "RWS", "RSWS", "STABLESAFE", "RAR", "CUSTOM"]
  else if k = "TIME_DOMAIN" then ["CONTINUOUS", "DISCRETE"]
  else if k = "VERIFIER" then ["Z3", "DREAL", "CVC5", "MARABOU", "NONE"]
  else ["QUADRATIC", "NONE"]

/-- **C62, unknown members.** A file whose CERTIFICATE, TIME_DOMAIN, VERIFIER or FACTORS is not the name of a member (in any case) is rejected. -/
theorem C62_unknown_member_rejected (file : Dict String Yaml) (hn : file.keys.Nodup) (k : String)
    (hk : k = "CERTIFICATE" ∨ k = "TIME_DOMAIN" ∨ k = "VERIFIER" ∨ k = "FACTORS") (v : Yaml) (hv : file.get? k = some v)
    (hbad : ∀ n ∈ Spec.members k, ¬ Spec.Names v n) : ∃ e, readFile file = .error e := by
  cases hr : readFile file with
  | error e => exact ⟨e, rfl⟩
  | ok s =>
    exfalso
    obtain ⟨cfg, -, -, -, ho, -⟩ := readFile_inv hr
    have hd : ∃ d, defaultConfig.get? k = some d := by
      rcases hk with rfl | rfl | rfl | rfl <;> exact ⟨_, rfl⟩
    obtain ⟨d, hd⟩ := hd
    rcases readOptions_get hn ho k d hd with ⟨h1, -⟩ | ⟨w, a, h1, h2, -⟩
    · rw [hv] at h1; cases h1
    · rw [hv] at h1
      cases h1
      have key : ∀ {α : Type} (name : α → String) (all : List α) (mk : α → Attr), mk <$> enumOf name all v = .ok a → ∃ x, Spec.Names v (name x) := by
        intro α name all mk h
        cases he : enumOf name all v with
        | error e => rw [he] at h; cases h
        | ok y => exact ⟨y, enumOf_ok he⟩
      rcases hk with rfl | rfl | rfl | rfl
      · obtain ⟨x, hx⟩ := key CertType.name CertType.all Attr.cert h2
        exact hbad _ (by cases x <;> decide +kernel) hx
      · obtain ⟨x, hx⟩ := key timeName [false, true] Attr.time h2
        exact hbad _ (by cases x <;> decide +kernel) hx
      · obtain ⟨x, hx⟩ := key VName.name VName.all Attr.verifier h2
        exact hbad _ (by cases x <;> decide +kernel) hx
      · obtain ⟨x, hx⟩ := key factorsName [true, false] Attr.factors h2
        exact hbad _ (by cases x <;> decide +kernel) hx

/-- **C62, case.** Upper and lower case make no difference in these options, whatever else the file says. -/
theorem C62_case_insensitive (a b : Dict String Yaml) (k : String)
    (hk : k = "CERTIFICATE" ∨ k = "TIME_DOMAIN" ∨ k = "VERIFIER" ∨ k = "FACTORS") (s s' : String) (hs : s.toUpper = s'.toUpper) :
    readFile (a ++ (k, .text s) :: b) = readFile (a ++ (k, .text s') :: b) := by
  have hc : convertField k (.text s) = convertField k (.text s') := by
    rcases hk with rfl | rfl | rfl | rfl <;> simp [convertField, enumOf, hs]
  have hget : ∀ j, k ≠ j → Dict.get? (a ++ (k, Yaml.text s) :: b) j = Dict.get? (a ++ (k, Yaml.text s') :: b) j := fun j hj => by
    rw [get?_insert _ _ _ _ _ hj, get?_insert _ _ _ _ _ hj]
  have hkeys : Dict.keys (a ++ (k, Yaml.text s) :: b) = Dict.keys (a ++ (k, Yaml.text s') :: b) := by simp [Dict.keys]
  refine readFile_congr ?_ (hget _ ?_) (hget _ ?_) (hget _ ?_)
  · unfold readOptions
    rw [hkeys, setFields_append, setFields_append]
    split_ifs
    · cases setFields a defaultConfig with
      | error e => rfl
      | ok c => simp only [Except.bind, setFields, hc]
    · rfl
  all_goals rcases hk with rfl | rfl | rfl | rfl <;> decide

/-- Names of sets, in contrast, must be written in upper case: every file with a set called `xd` is rejected. -/
theorem C62_set_names_case_sensitive (c : ConfigText) (a b : Dict String String) (t : String) (hd : c.domains = a ++ ("xd", t) :: b) :
    ∃ e, readConfig c = .error e := by
  cases hr : readConfig c with
  | error e => exact ⟨e, rfl⟩
  | ok r =>
    exfalso
    simp only [readConfig] at hr
    obtain ⟨f, -, hr⟩ := except_bind_ok hr
    obtain ⟨p, hp, -⟩ := except_bind_ok hr
    simp only [readSets] at hp
    obtain ⟨d, h1, hp⟩ := except_bind_ok hp
    obtain ⟨q, h2, -⟩ := except_bind_ok hp
    simp only [parseConfig] at h2
    obtain ⟨d1, h3, -⟩ := except_bind_ok h2
    have hm : ∀ (l : List (String × String)) (d : List (String × PySet)), readDomainTexts l = .ok d → d.map Prod.fst = l.map Prod.fst := by
      intro l
      induction l with
      | nil => intro d h; cases h; rfl
      | cons p l ih =>
        intro d h
        obtain ⟨k, t⟩ := p
        simp only [readDomainTexts] at h
        obtain ⟨S, -, h⟩ := except_bind_ok h
        obtain ⟨r, hr, h⟩ := except_bind_ok h
        cases h
        simp [ih r hr]
    have hno : ∀ (l : List (String × PySet)) (acc d : Dict String PySet), readDomains l acc = .ok d → "xd" ∉ l.map Prod.fst := by
      intro l
      induction l with
      | nil => simp
      | cons p l ih =>
        intro acc d h
        obtain ⟨k, S⟩ := p
        simp only [readDomains] at h
        obtain ⟨nm, hn, h⟩ := except_bind_ok h
        simp only [List.map_cons, List.mem_cons, not_or]
        refine ⟨?_, ih _ _ h⟩
        rintro rfl
        revert hn
        have : DName.ofName "xd" = .error .keyError := by decide +kernel
        rw [this]
        intro hn; cases hn
    refine hno d [] d1 h3 ?_
    rw [hm _ _ h1, hd]
    simp

/-! ### defaults that are not honoured -/

/-- What a run does with the loaded file (cli.py:204-247, cegis.py:30-58, main.py:155-160). -/
noncomputable def startFile (w : ℕ → ℕ → ℕ → ℚ) (file : Dict String Yaml) : Except Err (Ready ⊕ ReadyControl ⊕ VerifyCfg) := do
  match ← readFile file with
  | .synth c _ => .inl <$> readConfig c
  | .control c _ => (.inr ∘ .inl) <$> readControl w c
  | .verify c cand => (.inr ∘ .inr) <$> readVerify c cand

theorem readSets_no_data {c : ConfigText} (h : c.nData = none) : ∃ e, readSets c = .error e := by
  cases hr : readSets c with
  | error e => exact ⟨e, rfl⟩
  | ok r =>
    exfalso
    simp only [readSets] at hr
    obtain ⟨d, h1, hr⟩ := except_bind_ok hr
    obtain ⟨p, h2, hr⟩ := except_bind_ok hr
    rw [h] at h2
    simp only [parseConfig] at h2
    obtain ⟨d1, -, h2⟩ := except_bind_ok h2
    obtain ⟨d2, -, h2⟩ := except_bind_ok h2
    cases h2

/-- **C62, N_DATA.** Although N_DATA is documented to default to 500, a file without it is never accepted. -/
theorem C62_n_data_not_optional (w : ℕ → ℕ → ℕ → ℚ) (file : Dict String Yaml) (hn : file.keys.Nodup) (h : file.get? "N_DATA" = none) :
    ∃ e, startFile w file = .error e := by
  cases hr : startFile w file with
  | error e => exact ⟨e, rfl⟩
  | ok r =>
    exfalso
    simp only [startFile] at hr
    obtain ⟨s, hs, hr⟩ := except_bind_ok hr
    have key : ∀ c : ConfigText, Spec.OptionsOf file c → c.nData = none := by
      intro c hc
      have := hc.nData
      rw [h] at this
      cases hd : c.nData with
      | none => rfl
      | some x => rw [hd] at this; cases x <;> cases this
    cases s with
    | synth c o =>
      obtain ⟨e, he⟩ := readSets_no_data (key c (C62_options_used file hn c o hs).1)
      cases hc : readConfig c with
      | error e => dsimp only at hr; rw [hc] at hr; cases hr
      | ok x =>
        simp only [readConfig] at hc
        obtain ⟨f, -, hc⟩ := except_bind_ok hc
        rw [he] at hc
        cases hc
    | control c o =>
      obtain ⟨e, he⟩ := readSets_no_data (key c.base (C62_control_options_used file hn c o hs).1)
      cases hc : readControl w c with
      | error e => dsimp only at hr; rw [hc] at hr; cases hr
      | ok x =>
        simp only [readControl] at hc
        obtain ⟨f, -, hc⟩ := except_bind_ok hc
        obtain ⟨k, -, hc⟩ := except_bind_ok hc
        cases k with
        | none => cases hc
        | some k =>
          obtain ⟨l, -, hc⟩ := except_bind_ok hc
          rw [he] at hc
          cases hc
    | verify c cand =>
      obtain ⟨e, he⟩ := readSets_no_data (key c (C62_verify_options_used file hn c cand hs).1)
      cases hc : readVerify c cand with
      | error e => dsimp only at hr; rw [hc] at hr; cases hr
      | ok x =>
        simp only [readVerify] at hc
        obtain ⟨f, -, hc⟩ := except_bind_ok hc
        rw [he] at hc
        cases hc

/-- The file /repo/config.yaml (comments removed): a stable linear system. -/
def exFile : Dict String Yaml := [
  ("SYSTEM", .texts ["x1", "-x1 - x0"]), ("CERTIFICATE", .text "Lyapunov"), ("DOMAINS", .textMap [("XD", "Sphere([0,0], 1.0)")]),
  ("TIME_DOMAIN", .text "CONTINUOUS"), ("VERIFIER", .text "Z3"), ("N_DATA", .countMap [("XD", 1000)]), ("N_VARS", .int 2),
  ("N_HIDDEN_NEURONS", .ints [5]), ("ACTIVATION", .texts ["SQUARE"]), ("SEED", .int 0)]

/-- What that file is read as. -/
def exFileText : ConfigText :=
  ⟨.z3, 2, .LYAPUNOV, ["x1", "-x1 - x0"], [("XD", "Sphere([0,0], 1.0)")], some (.dict [("XD", 1000)]), ⟨1 / 10, true, false⟩, false, 3, false, 10⟩

deriving instance DecidableEq for CheckCfg, ConfigText, ControlConfig, Start

/-- Non-vacuity of `C62_options_used`. -/
theorem exFile_read : readFile exFile = .ok (.synth exFileText ⟨[5], [.SQUARE], [10], [.SQUARE]⟩) := by
  decide +kernel

/-- **C62, negation.** TIME_DOMAIN is documented as optional but a file is rejected without it. -/
theorem C62_time_domain_not_optional : ¬ TimeDomainOptional := by
  intro h
  have h1 : readFile (("TIME_DOMAIN", .text "CONTINUOUS") :: exFile.erase "TIME_DOMAIN") =
      .ok (.synth exFileText ⟨[5], [.SQUARE], [10], [.SQUARE]⟩) := by decide +kernel
  have h2 := h _ _ h1 (by decide +kernel)
  rw [C62_required_fields _ "TIME_DOMAIN" (by simp) (by decide +kernel)] at h2
  cases h2

/-- Non-vacuity of `C62_unknown_field_ignored`: a misspelt option. -/
example : "ROUNDINGS" ∉ defaultConfig.keys ∧ reserved "ROUNDINGS" = false := by decide +kernel

/-- Non-vacuity of `C62_control_options_used` and `C62_verify_options_used`. -/
example : readFile (("CTRLAYER", .ints [5, 1]) :: ("CTRLACTIVATION", .texts ["linear"]) :: exFile) =
    .ok (.control ⟨exFileText, [5, 1], [.LINEAR]⟩ ⟨[5], [.SQUARE], [10], [.SQUARE]⟩) ∧
    readFile (("CANDIDATE", .texts ["x0**2 + x1**2"]) :: exFile) = .ok (.verify exFileText ["x0**2 + x1**2"]) := by
  decide +kernel

/-- The text of a format without line breaks. -/
def flatText : Std.Format → String
  | .text s => s
  | .append a b => flatText a ++ flatText b
  | .nest _ a | .group a _ | .tag _ a => flatText a
  | _ => ""

/-- **C62.** The member names are the names of the members: what an option's text is compared with is the name the type itself shows. -/
theorem C62_member_names : (∀ c : CertType, flatText (repr c) = "Fossil.CertType." ++ c.name) ∧ (∀ a : ActivationType, flatText (repr a) = "Fossil.ActivationType." ++ a.name) ∧
   (∀ a : VName, flatText (repr a) = "Fossil.VName." ++ a.name) ∧ (∀ c : CertType, c ∈ CertType.all) ∧ (∀ a : ActivationType, a ∈ ActivationType.all) ∧ (∀ a : VName, a ∈ VName.all) := by
  refine ⟨?_, ?_, ?_, ?_, ?_, ?_⟩ <;> intro c <;> cases c <;> decide +kernel

end Fossil
