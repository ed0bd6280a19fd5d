/-
C34: the command-line front end. Which configurations pass the label checks, what the data sets they give are sampled from, and in which
order the data dictionary is built.
-/
import Verif.Props.C42_State
import Verif.Props.C36_Labels
import Verif.Lemmas.Pipeline

namespace Fossil
open Spec

/-! ### lemmas -/

theorem DName.value_injective : Function.Injective DName.value := by
  intro a b h; cases a <;> cases b <;> first | rfl | (exact absurd h (by decide))

theorem DName.ofName_ok {s : String} {d : DName} : DName.ofName s = .ok d ↔ s = d.name := by
  constructor
  · intro h
    unfold DName.ofName at h
    cases hf : DName.all.find? (fun d => d.name = s) with
    | none => rw [hf] at h; cases h
    | some e =>
      rw [hf] at h; cases h
      have := List.find?_some hf
      simpa using (of_decide_eq_true this).symm
  · rintro rfl
    cases d <;> decide

theorem get_ok {κ : Type} [DecidableEq κ] {α : Type _} {d : Dict κ α} {k : κ} {a : α} : Dict.get d k = .ok a ↔ Dict.get? d k = some a := by
  unfold Dict.get
  cases Dict.get? d k <;> simp

/-- The user's sets, by label. -/
theorem readDomains_get {l : List (String × PySet)} : ∀ {acc U : Dict String PySet}, (l.map Prod.fst).Nodup →
    readDomains l acc = .ok U → ∀ d : DName, Dict.get? U d.value =
      match Dict.get? l d.name with
      | some S => some S
      | none => Dict.get? acc d.value := by
  induction l with
  | nil => intro acc U _ h d; cases h; rfl
  | cons e l ih =>
    obtain ⟨k, S⟩ := e
    intro acc U hn h d
    obtain ⟨d0, h1, h2⟩ := except_bind_ok h
    rw [DName.ofName_ok] at h1
    subst h1
    simp only [List.map_cons, List.nodup_cons] at hn
    rw [ih hn.2 h2 d, Dict.get?_cons, Dict.get?_set]
    by_cases hd : d0 = d
    · subst hd
      have : Dict.get? l d0.name = none := Dict.get?_eq_none_iff.2 hn.1
      simp [this]
    · have h3 : d0.value ≠ d.value := fun e => hd (DName.value_injective e)
      have h4 : d0.name ≠ d.name := fun e => hd (by cases d0 <;> cases d <;> first | rfl | (exact absurd e (by decide)))
      simp [h3, h4]

theorem readDataInt_get (N : ℕ) (doms : Dict String PySet) (x : String) :
    Dict.get? (readDataInt N doms) x = (Dict.get? doms x).map (fun S => Src.interior S N) := by
  induction doms with
  | nil => rfl
  | cons e doms ih =>
    obtain ⟨k, S⟩ := e
    simp only [readDataInt, Dict.get?_cons]
    by_cases h : k = x <;> simp [h, ih]

/-- The data read from a dictionary of counts. -/
theorem readDataDict_get {doms : Dict String PySet} {l : List (String × ℕ)} : ∀ {acc data : Dict String Src}, (l.map Prod.fst).Nodup →
    readDataDict doms l acc = .ok data → ∀ d : DName, Dict.get? data d.value =
      match Dict.get? l d.name, Dict.get? doms d.value with
      | some N, some S => some (if d ∈ DName.borderValues then .border S N else .interior S N)
      | _, _ => Dict.get? acc d.value := by
  induction l with
  | nil => intro acc U _ h d; cases h; rfl
  | cons e l ih =>
    obtain ⟨k, N⟩ := e
    intro acc data hn h d
    obtain ⟨d0, h1, h2⟩ := except_bind_ok h
    rw [DName.ofName_ok] at h1
    subst h1
    simp only [List.map_cons, List.nodup_cons] at hn
    have hnone : Dict.get? l d0.name = none := Dict.get?_eq_none_iff.2 hn.1
    have hv : d0 ≠ d → d0.value ≠ d.value := fun hd e => hd (DName.value_injective e)
    have hm : d0 ≠ d → d0.name ≠ d.name := fun hd e => hd (by cases d0 <;> cases d <;> first | rfl | (exact absurd e (by decide)))
    by_cases hb : d0 ∈ DName.borderValues
    · rw [if_pos hb] at h2
      obtain ⟨S, h3, h4⟩ := except_bind_ok h2
      rw [get_ok] at h3
      rw [ih hn.2 h4 d, Dict.get?_cons, Dict.get?_set]
      by_cases hd : d0 = d
      · subst hd; simp [hnone, h3, hb]
      · simp [hv hd, hm hd]
    · rw [if_neg hb] at h2
      cases h3 : Dict.get? doms d0.value with
      | some S =>
        rw [h3] at h2
        rw [ih hn.2 h2 d, Dict.get?_cons, Dict.get?_set]
        by_cases hd : d0 = d
        · subst hd; simp [hnone, h3, hb]
        · simp [hv hd, hm hd]
      | none =>
        rw [h3] at h2
        rw [ih hn.2 h2 d, Dict.get?_cons]
        by_cases hd : d0 = d
        · subst hd; simp [hnone, h3]
        · simp [hm hd]

theorem readDataDict_keys {doms : Dict String PySet} {l : List (String × ℕ)} : ∀ {acc data : Dict String Src},
    readDataDict doms l acc = .ok data → ∀ x ∈ data.keys, x ∈ acc.keys ∨ ∃ S, Dict.get? doms x = some S := by
  induction l with
  | nil => intro acc U h x hx; cases h; exact Or.inl hx
  | cons e l ih =>
    obtain ⟨k, N⟩ := e
    intro acc data h x hx
    obtain ⟨d0, h1, h2⟩ := except_bind_ok h
    by_cases hb : d0 ∈ DName.borderValues
    · rw [if_pos hb] at h2
      obtain ⟨S, h3, h4⟩ := except_bind_ok h2
      rcases ih h4 x hx with h5 | h5
      · rw [Dict.mem_keys_set] at h5
        rcases h5 with rfl | h5
        · exact Or.inr ⟨S, get_ok.1 h3⟩
        · exact Or.inl h5
      · exact Or.inr h5
    · rw [if_neg hb] at h2
      cases h3 : Dict.get? doms d0.value with
      | some S =>
        rw [h3] at h2
        rcases ih h2 x hx with h5 | h5
        · rw [Dict.mem_keys_set] at h5
          rcases h5 with rfl | h5
          · exact Or.inr ⟨S, h3⟩
          · exact Or.inl h5
        · exact Or.inr h5
      | none => rw [h3] at h2; exact ih h2 x hx

theorem domainEntries_keys {lib : Lib} {n : ℕ} {doms : Dict String PySet} : ∀ {d : Dict String Formula},
    domainEntries lib n doms = .ok d → d.keys = doms.keys := by
  induction doms with
  | nil => intro d h; cases h; rfl
  | cons e rest ih =>
    obtain ⟨l, S⟩ := e
    intro d h
    unfold domainEntries at h
    split at h
    · cases h
    split at h
    · cases h
    rename_i d' hd'
    cases h
    simp [Dict.keys] at ih ⊢
    exact ih hd'

/-- Labels of the symbolic domains: those configured, plus the complement of the final set for ReachAvoidRemain. -/
theorem initialise_keys {lib : Lib} {n : ℕ} {ct : CertType} {doms : Dict String PySet} {d : Dict String Formula}
    (h : initialiseDomains lib n ct doms = .ok d) (x : String) :
    x ∈ d.keys ↔ x ∈ doms.keys ∨ (ct = .RAR ∧ x = XNF) := by
  unfold initialiseDomains at h
  split at h
  · cases h
  rename_i d' hd'
  have hk := domainEntries_keys hd'
  by_cases hr : ct = .RAR
  · rw [if_pos hr] at h
    obtain ⟨S, h1, h2⟩ := except_bind_ok h
    obtain ⟨φ, h3, h4⟩ := except_bind_ok h2
    cases h4
    rw [Dict.mem_keys_set, hk]
    simp [hr, or_comm]
  · rw [if_neg hr] at h
    cases h
    simp [hk, hr]

/-- A successful start, step by step. -/
theorem cliStart_inv {lib : Lib} {n : ℕ} {c : CheckCfg} {ct : CertType} {domains : List (String × PySet)} {nd : Option NData}
    {data : Dict String Src} {d : Dict String Formula} (h : cliStart lib n c ct domains nd = .ok (data, d)) :
    ∃ U doms nd' raw doms', nd = some nd' ∧ readDomains domains [] = .ok U ∧ addBorders ct.requiredBorders U = .ok doms ∧
      (match nd' with | .int N => Except.ok (readDataInt N doms) | .dict l => readDataDict doms l []) = .ok raw ∧
      adjustData ct raw doms nd' = .ok (data, doms') ∧ initialiseDomains lib n ct doms' = .ok d ∧
      cegisAssertState c ct d.keys data.keys = .ok () := by
  obtain ⟨⟨data', doms'⟩, h1, h2⟩ := except_bind_ok h
  obtain ⟨d', h3, h4⟩ := except_bind_ok h2
  obtain ⟨u, h5, h6⟩ := except_bind_ok h4
  cases h6
  obtain ⟨U, h7, h8⟩ := except_bind_ok h1
  obtain ⟨doms, h9, h10⟩ := except_bind_ok h8
  cases nd with
  | none => cases h10
  | some nd =>
    cases nd with
    | int N => exact ⟨U, doms, _, _, doms', rfl, h7, h9, rfl, h10, h3, h5⟩
    | dict l =>
      obtain ⟨raw, h11, h12⟩ := except_bind_ok h10
      exact ⟨U, doms, _, raw, doms', rfl, h7, h9, h11, h12, h3, h5⟩

theorem addMinus_inv {data data' : Dict String Src} {doms : Dict String PySet} {nd : NData} {label inner : DName}
    (h : addMinus data doms nd label inner = .ok data') :
    ∃ D I N, Dict.get? doms XD = some D ∧ Dict.get? doms inner.value = some I ∧ nd.count label = .ok N ∧
      data' = Dict.set data label.value (.interior (.setMinus D I) N) := by
  obtain ⟨D, h1, h2⟩ := except_bind_ok h
  obtain ⟨I, h3, h4⟩ := except_bind_ok h2
  obtain ⟨N, h5, h6⟩ := except_bind_ok h4
  cases h6
  exact ⟨D, I, N, get_ok.1 h1, get_ok.1 h3, h5, rfl⟩

/-! ### C34: what is rejected -/

/-- **C34, the defect.** The documentation offers a single integer for N_DATA, and a default. For the reach certificates no configuration
with an integer is ever accepted, whatever the sets: the border labels become data labels, which the certificate rejects. -/
theorem C34_integer_counts_never_accepted (lib : Lib) (n : ℕ) (c : CheckCfg) (ct : CertType)
    (hct : ct = .RWS ∨ ct = .RWA ∨ ct = .RSWS ∨ ct = .RSWA ∨ ct = .RAR) (domains : List (String × PySet)) (N : ℕ) :
    ¬ ∃ r, cliStart lib n c ct domains (some (.int N)) = .ok r := by
  rintro ⟨⟨data, d⟩, h⟩
  obtain ⟨U, doms, nd', raw, doms', e, h1, h2, h3, h4, h5, h6⟩ := cliStart_inv h
  cases e
  cases h3
  have hb : ∃ S, Dict.get? doms XSB = some S := by
    rcases hct with rfl | rfl | rfl | rfl | rfl
    all_goals
      simp only [CertType.requiredBorders] at h2
      obtain ⟨S, k1, k2⟩ := except_bind_ok h2
    · cases k2; exact ⟨S, by rw [Dict.get?_set]; simp [DName.value]⟩
    · cases k2; exact ⟨S, by rw [Dict.get?_set]; simp [DName.value]⟩
    · obtain ⟨S', k3, k4⟩ := except_bind_ok k2
      cases k4; exact ⟨S, by rw [Dict.get?_set, Dict.get?_set]; simp [DName.value, XGB, XSB]⟩
    · obtain ⟨S', k3, k4⟩ := except_bind_ok k2
      cases k4; exact ⟨S, by rw [Dict.get?_set, Dict.get?_set]; simp [DName.value, XGB, XSB]⟩
    · cases k2; exact ⟨S, by rw [Dict.get?_set]; simp [DName.value]⟩
  obtain ⟨S, hS⟩ := hb
  have hraw : XSB ∈ (readDataInt N doms).keys := by
    rw [← Dict.get?_isSome_iff, readDataInt_get, hS]; rfl
  have hdata : XSB ∈ data.keys := by
    rcases hct with rfl | rfl | rfl | rfl | rfl
    all_goals
      obtain ⟨d1, k1, k2⟩ := except_bind_ok h4
      obtain ⟨_, _, _, -, -, -, rfl⟩ := addMinus_inv k1
    · cases k2; rw [Dict.mem_keys_set]; exact Or.inr hraw
    · cases k2; rw [Dict.mem_keys_set]; exact Or.inr hraw
    · cases k2; rw [Dict.mem_keys_set]; exact Or.inr hraw
    · cases k2; rw [Dict.mem_keys_set]; exact Or.inr hraw
    · obtain ⟨d2, k3, k4⟩ := except_bind_ok k2
      obtain ⟨_, _, _, -, -, -, rfl⟩ := addMinus_inv k3
      cases k4; rw [Dict.mem_keys_set, Dict.mem_keys_set]; exact Or.inr (Or.inr hraw)
  have hc : ct ≠ .CUSTOM := by rcases hct with rfl | rfl | rfl | rfl | rfl <;> decide
  have h7 := ((C42_assert_state_iff ct hc _ _).1.1 ((C42_cegis_state_iff _ _ _ _).1 h6).2.2.2).2
  rcases h7 with h7 | ⟨h7, -⟩
  · have := (h7 XSB).1 hdata
    rcases hct with rfl | rfl | rfl | rfl | rfl <;> simp [requiredData, XSB, XD, XI, XU, XS, XG, XGB, XF, XNF] at this
  · rcases hct with rfl | rfl | rfl | rfl | rfl <;> cases h7

/-- **C34, the defect.** N_DATA has a documented default of 500 and is not among the required fields, but leaving it out is always an error. -/
theorem C34_missing_counts_rejected (ct : CertType) (domains : List (String × PySet)) :
    ∀ r, parseConfig ct domains none ≠ .ok r := by
  intro r h
  obtain ⟨U, h7, h8⟩ := except_bind_ok h
  obtain ⟨doms, h9, h10⟩ := except_bind_ok h8
  cases h10

/-- The additional data set XR of StableSafe (certificate.py:1365-1369) cannot be used from the command line: a configuration with it is
never accepted. -/
theorem C34_region_data_unavailable (lib : Lib) (n : ℕ) (c : CheckCfg) (domains : List (String × PySet)) (nd : Option NData)
    (data : Dict String Src) (d : Dict String Formula) (h : cliStart lib n c .STABLESAFE domains nd = .ok (data, d)) :
    XR ∉ data.keys := by
  obtain ⟨U, doms, nd', raw, doms', rfl, h1, h2, h3, h4, h5, h6⟩ := cliStart_inv h
  cases h4
  intro hx
  have hdoms : XR ∈ doms.keys := by
    cases nd' with
    | int N =>
      cases h3
      rw [← Dict.get?_isSome_iff, readDataInt_get, Option.isSome_map, Dict.get?_isSome_iff] at hx
      exact hx
    | dict l =>
      rcases readDataDict_keys h3 XR hx with h7 | ⟨S, h7⟩
      · cases h7
      · rw [← Dict.get?_isSome_iff, h7]; rfl
  have h7 := ((C42_assert_state_iff .STABLESAFE (by decide) _ _).1.1 ((C42_cegis_state_iff _ _ _ _).1 h6).2.2.2).1
  have := (h7 XR).1 ((initialise_keys h5 XR).2 (Or.inl hdoms))
  simp [requiredDomains, XR, XD, XI, XU] at this

/-! ### C34: what is accepted -/

namespace Spec

/-- The reach certificates, which take a safe set instead of an unsafe one. -/
def TakesSafeSet (ct : CertType) : Prop := ct = .RWS ∨ ct = .RWA ∨ ct = .RSWS ∨ ct = .RSWA ∨ ct = .RAR

/-- What the data set with label `d` should be sampled from, in terms of the DOMAINS field of the configuration: the border of the goal
for the goal-border label; the part of the domain outside the safe set for the unsafe label of the reach certificates; the part outside
the final set for the not-final label; otherwise the interior sampler of the set with that label. -/
inductive DataFrom (ct : CertType) (domains : List (String × PySet)) (N : ℕ) : DName → Src → Prop
  | goalBorder {G : PySet} : Dict.get? domains "XG" = some G → DataFrom ct domains N .XG_BORDER (.border G N)
  | outsideSafe {D S : PySet} : TakesSafeSet ct → Dict.get? domains "XD" = some D → Dict.get? domains "XS" = some S →
      DataFrom ct domains N .XU (.interior (.setMinus D S) N)
  | outsideFinal {D F : PySet} : ct = .RAR → Dict.get? domains "XD" = some D → Dict.get? domains "XF" = some F →
      DataFrom ct domains N .XNF (.interior (.setMinus D F) N)
  | plain {d : DName} {S : PySet} : d ≠ .XG_BORDER → d ≠ .XS_BORDER → (d = .XU → ¬ TakesSafeSet ct) → d ≠ .XNF →
      Dict.get? domains d.name = some S → DataFrom ct domains N d (.interior S N)

end Spec

/-- Adding the borders leaves the other labels alone, and the goal border gets the user's goal set. -/
theorem addBorders_get {ct : CertType} {U doms : Dict String PySet} (h : addBorders ct.requiredBorders U = .ok doms) :
    (∀ x, x ≠ XSB → x ≠ XGB → Dict.get? doms x = Dict.get? U x) ∧
    ((ct = .RSWS ∨ ct = .RSWA) → Dict.get? doms XGB = Dict.get? U XG) := by
  cases ct
  case LYAPUNOV | BARRIER | BARRIERALT | ROA | STABLESAFE | CUSTOM => cases h; exact ⟨fun _ _ _ => rfl, by rintro (h | h) <;> cases h⟩
  case RWS | RWA | RAR =>
    obtain ⟨S, k1, k2⟩ := except_bind_ok h
    cases k2
    refine ⟨fun x h1 _ => ?_, by rintro (h | h) <;> cases h⟩
    rw [Dict.get?_set, if_neg (fun e => h1 e.symm)]
  case RSWS | RSWA =>
    obtain ⟨S, k1, k2⟩ := except_bind_ok h
    obtain ⟨G, k3, k4⟩ := except_bind_ok k2
    cases k4
    refine ⟨fun x h1 h2 => ?_, fun _ => ?_⟩
    · rw [Dict.get?_set, if_neg (fun e => h2 e.symm), Dict.get?_set, if_neg (fun e => h1 e.symm)]
    · rw [Dict.get?_set, if_pos (show DName.XG_BORDER.value = XGB from rfl)]
      rw [get_ok, Dict.get?_set, if_neg (by decide)] at k3
      exact k3.symm

/-- The data read before adjustment. -/
theorem raw_get {doms : Dict String PySet} {nd : NData} {raw : Dict String Src} (hnd : ∀ l, nd = .dict l → (l.map Prod.fst).Nodup)
    (h : (match nd with | .int N => Except.ok (readDataInt N doms) | .dict l => readDataDict doms l []) = .ok raw)
    {d : DName} {src : Src} (hs : Dict.get? raw d.value = some src) :
    ∃ S N, nd.count d = .ok N ∧ Dict.get? doms d.value = some S ∧
      ((src = .interior S N ∧ (d ∉ DName.borderValues ∨ ∃ N, nd = .int N)) ∨ (src = .border S N ∧ d ∈ DName.borderValues)) := by
  cases nd with
  | int N =>
    cases h
    rw [readDataInt_get, Option.map_eq_some_iff] at hs
    obtain ⟨S, h1, rfl⟩ := hs
    exact ⟨S, N, rfl, h1, Or.inl ⟨rfl, Or.inr ⟨N, rfl⟩⟩⟩
  | dict l =>
    have := readDataDict_get (hnd l rfl) h d
    rw [hs] at this
    cases h1 : Dict.get? l d.name with
    | none => rw [h1] at this; cases this
    | some N =>
      cases h2 : Dict.get? doms d.value with
      | none => rw [h1, h2] at this; cases this
      | some S =>
        rw [h1, h2] at this
        injection this with this
        refine ⟨S, N, get_ok.2 h1, rfl, ?_⟩
        by_cases hb : d ∈ DName.borderValues
        · rw [if_pos hb] at this; exact Or.inr ⟨this, hb⟩
        · rw [if_neg hb] at this; exact Or.inl ⟨this, Or.inl hb⟩

/-- The data after adjustment. -/
theorem adjust_get {ct : CertType} {raw data : Dict String Src} {doms doms' : Dict String PySet} {nd : NData}
    (h : adjustData ct raw doms nd = .ok (data, doms')) {d : DName} {src : Src} (hs : Dict.get? data d.value = some src) :
    (TakesSafeSet ct ∧ d = .XU ∧ ∃ D S N, Dict.get? doms XD = some D ∧ Dict.get? doms XS = some S ∧ nd.count .XU = .ok N ∧
      src = .interior (.setMinus D S) N) ∨
    (ct = .RAR ∧ d = .XNF ∧ ∃ D F N, Dict.get? doms XD = some D ∧ Dict.get? doms XF = some F ∧ nd.count .XNF = .ok N ∧
      src = .interior (.setMinus D F) N) ∨
    (Dict.get? raw d.value = some src ∧ (d = .XU → ¬ TakesSafeSet ct) ∧ (d = .XNF → ct ≠ .RAR)) := by
  have key : ∀ {data1 : Dict String Src}, addMinus raw doms nd .XU .XS = .ok data1 → ∀ src, Dict.get? data1 d.value = some src →
      (d = .XU ∧ ∃ D S N, Dict.get? doms XD = some D ∧ Dict.get? doms XS = some S ∧ nd.count .XU = .ok N ∧
        src = .interior (.setMinus D S) N) ∨ (Dict.get? raw d.value = some src ∧ d ≠ .XU) := by
    intro data1 h1 src h2
    obtain ⟨D, S, N, k1, k2, k3, rfl⟩ := addMinus_inv h1
    rw [Dict.get?_set] at h2
    by_cases hd : d = .XU
    · subst hd
      rw [if_pos rfl] at h2
      cases h2
      exact Or.inl ⟨rfl, D, S, N, k1, k2, k3, rfl⟩
    · rw [if_neg (fun e => hd (DName.value_injective e).symm)] at h2
      exact Or.inr ⟨h2, hd⟩
  cases ct
  case LYAPUNOV | BARRIER | BARRIERALT | STABLESAFE | CUSTOM =>
    cases h
    refine Or.inr (Or.inr ⟨hs, fun _ => ?_, fun _ => by decide⟩)
    rintro (h | h | h | h | h) <;> cases h
  case ROA =>
    obtain ⟨D, k1, k2⟩ := except_bind_ok h
    cases k2
    refine Or.inr (Or.inr ⟨hs, fun _ => ?_, fun _ => by decide⟩)
    rintro (h | h | h | h | h) <;> cases h
  case RWS | RWA | RSWS | RSWA =>
    obtain ⟨data1, k1, k2⟩ := except_bind_ok h
    cases k2
    rcases key k1 src hs with ⟨h1, h2⟩ | ⟨h1, h2⟩
    · exact Or.inl ⟨by simp [TakesSafeSet], h1, h2⟩
    · exact Or.inr (Or.inr ⟨h1, fun e => absurd e h2, fun _ => by decide⟩)
  case RAR =>
    obtain ⟨data1, k1, k2⟩ := except_bind_ok h
    obtain ⟨data2, k3, k4⟩ := except_bind_ok k2
    cases k4
    obtain ⟨D, F, N, k5, k6, k7, rfl⟩ := addMinus_inv k3
    rw [Dict.get?_set] at hs
    by_cases hd : d = .XNF
    · subst hd
      rw [if_pos rfl] at hs
      cases hs
      exact Or.inr (Or.inl ⟨rfl, rfl, D, F, N, k5, k6, k7, rfl⟩)
    · rw [if_neg (fun e => hd (DName.value_injective e).symm)] at hs
      rcases key k1 src hs with ⟨h1, h2⟩ | ⟨h1, h2⟩
      · exact Or.inl ⟨by simp [TakesSafeSet], h1, h2⟩
      · exact Or.inr (Or.inr ⟨h1, fun e => absurd e h2, fun e => absurd e hd⟩)

/-- **C34.** For every configuration the command line accepts (any certificate but CUSTOM; YAML keys are distinct): the data labels are
exactly those the certificate needs, and each data set is sampled from the documented source, with the configured number of samples. -/
theorem C34_accepted_sources (lib : Lib) (n : ℕ) (c : CheckCfg) (ct : CertType) (hct : ct ≠ .CUSTOM)
    (domains : List (String × PySet)) (hdn : (domains.map Prod.fst).Nodup)
    (nd : NData) (hnd : ∀ l, nd = .dict l → (l.map Prod.fst).Nodup)
    (data : Dict String Src) (d : Dict String Formula) (h : cliStart lib n c ct domains (some nd) = .ok (data, d)) :
    LabelsAre data.keys (requiredData ct) ∧ LabelsAre d.keys (requiredDomains ct) ∧
    ∀ x src, Dict.get? data (DName.value x) = some src → ∃ N, nd.count x = .ok N ∧ DataFrom ct domains N x src := by
  obtain ⟨U, doms, nd', raw, doms', e, h1, h2, h3, h4, h5, h6⟩ := cliStart_inv h
  cases e
  have h7 := (C42_assert_state_iff ct hct _ _).1.1 ((C42_cegis_state_iff _ _ _ _).1 h6).2.2.2
  have hlab : LabelsAre data.keys (requiredData ct) := by
    rcases h7.2 with h8 | ⟨rfl, h8⟩
    · exact h8
    · exact absurd ((h8 XR).2 (by simp)) (C34_region_data_unavailable lib n c domains (some nd) data d h)
  refine ⟨hlab, h7.1, fun x src hs => ?_⟩
  obtain ⟨b1, b2⟩ := addBorders_get h2
  have hU : ∀ x : DName, Dict.get? U x.value = Dict.get? domains x.name := by
    intro x
    rw [readDomains_get hdn h1 x]
    cases Dict.get? domains x.name <;> rfl
  have hdom : ∀ (x : DName) S, x ≠ .XS_BORDER → x ≠ .XG_BORDER → Dict.get? doms x.value = some S → Dict.get? domains x.name = some S := by
    intro x S hx hx' hh
    rw [← hU x, ← b1 x.value (fun e => hx (DName.value_injective e)) (fun e => hx' (DName.value_injective e))]
    exact hh
  rcases adjust_get h4 hs with ⟨k1, rfl, D, S, N, k2, k3, k4, rfl⟩ | ⟨k1, rfl, D, F, N, k2, k3, k4, rfl⟩ | ⟨k1, k2, k3⟩
  · exact ⟨N, k4, .outsideSafe k1 (hdom .XD D (by decide) (by decide) k2) (hdom .XS S (by decide) (by decide) k3)⟩
  · exact ⟨N, k4, .outsideFinal k1 (hdom .XD D (by decide) (by decide) k2) (hdom .XF F (by decide) (by decide) k3)⟩
  · obtain ⟨S, N, k4, k5, k6⟩ := raw_get hnd h3 k1
    have hx : x.value ∈ requiredData ct := (hlab x.value).1 (Dict.get?_isSome_iff.1 (by rw [hs]; rfl))
    have hsb : x ≠ .XS_BORDER := by
      rintro rfl
      cases ct <;> simp [requiredData, DName.value, XSB, XD, XI, XU, XS, XG, XGB, XF, XNF] at hx
    have hnf : x ≠ .XNF := by
      rintro rfl
      cases ct <;> simp [requiredData, DName.value, XSB, XD, XI, XU, XS, XG, XGB, XF, XNF] at hx k3
    by_cases hgb : x = .XG_BORDER
    · subst hgb
      have hr : ct = .RSWS ∨ ct = .RSWA := by
        cases ct <;> simp [requiredData, DName.value, XSB, XD, XI, XU, XS, XG, XGB, XF, XNF] at hx <;> simp
      rcases k6 with ⟨-, k6 | ⟨N, rfl⟩⟩ | ⟨rfl, -⟩
      · exact absurd (by decide) k6
      · exact absurd ⟨_, h⟩ (C34_integer_counts_never_accepted lib n c ct (by tauto) domains N)
      · refine ⟨N, k4, .goalBorder ?_⟩
        have := b2 hr
        rw [show XGB = DName.XG_BORDER.value from rfl, k5] at this
        rw [show "XG" = DName.XG.name from rfl, ← hU]
        exact this.symm
    · rcases k6 with ⟨rfl, -⟩ | ⟨-, k6⟩
      · exact ⟨N, k4, .plain hgb hsb k2 hnf (hdom x S hsb hgb k5)⟩
      · simp [DName.borderValues] at k6; tauto

/-! ### C34: the formulas checked -/

namespace Spec

/-- What the formula of the domain label `x` should say, in terms of the DOMAINS field of the configuration: the border labels get the
boundary of the user's safe (goal) set, so that the formula holds on its topological boundary; the not-final label holds exactly outside
the user's final set; any other label holds exactly on the user's set of that name. -/
def FormulaFor (lib : Lib) (n : ℕ) (domains : List (String × PySet)) (φ : Formula) : DName → Prop
  | .XS_BORDER => ∃ S, Dict.get? domains "XS" = some S ∧ S.generateBoundary lib (vars n) = .ok φ ∧
      (BoundaryOK S → ∀ p ∈ frontier (docSet n S), φ.holds p.env)
  | .XG_BORDER => ∃ G, Dict.get? domains "XG" = some G ∧ G.generateBoundary lib (vars n) = .ok φ ∧
      (BoundaryOK G → ∀ p ∈ frontier (docSet n G), φ.holds p.env)
  | .XNF => ∃ F, Dict.get? domains "XF" = some F ∧ ∀ p : Pt n, φ.holds p.env ↔ p ∉ docSet n F
  | x => ∃ S, Dict.get? domains x.name = some S ∧ ∀ p : Pt n, φ.holds p.env ↔ p ∈ docSet n S

end Spec

/-- The safe border gets the user's safe set. -/
theorem addBorders_safe {ct : CertType} (hct : TakesSafeSet ct) {U doms : Dict String PySet}
    (h : addBorders ct.requiredBorders U = .ok doms) : Dict.get? doms XSB = Dict.get? U XS := by
  rcases hct with rfl | rfl | rfl | rfl | rfl
  case inl | inr.inl | inr.inr.inr.inr =>
    obtain ⟨S, k1, k2⟩ := except_bind_ok h
    cases k2
    rw [Dict.get?_set, if_pos (show DName.XS_BORDER.value = XSB from rfl)]
    exact (get_ok.1 k1).symm
  all_goals
    obtain ⟨S, k1, k2⟩ := except_bind_ok h
    obtain ⟨G, k3, k4⟩ := except_bind_ok k2
    cases k4
    rw [Dict.get?_set, if_neg (by decide), Dict.get?_set, if_pos (show DName.XS_BORDER.value = XSB from rfl)]
    exact (get_ok.1 k1).symm

theorem get?_erase_some {κ : Type} [DecidableEq κ] {α : Type _} {d : Dict κ α} {k x : κ} {a : α} (hx : x ≠ k)
    (h : Dict.get? (Dict.erase d k) x = some a) : Dict.get? d x = some a := by
  induction d with
  | nil => exact h
  | cons e d ih =>
    obtain ⟨k', b⟩ := e
    unfold Dict.erase at h
    by_cases hk : k' = k
    · rw [if_pos hk] at h
      rw [Dict.get?_cons, if_neg (fun e => hx (e.symm.trans hk))]; exact h
    · rw [if_neg hk, Dict.get?_cons] at h
      rw [Dict.get?_cons]
      by_cases hk' : k' = x
      · rw [if_pos hk'] at h ⊢; exact h
      · rw [if_neg hk'] at h ⊢; exact ih h

/-- **C34.** For every configuration the command line accepts (any certificate but CUSTOM, z3 or dReal; YAML keys are distinct and the
sets well-formed), each formula handed to the certificate is the documented one of the user's sets. -/
theorem C34_accepted_formulas (lib : Lib) (hlib : lib = .z3 ∨ lib = .dreal) (n : ℕ) (c : CheckCfg) (ct : CertType) (hct : ct ≠ .CUSTOM)
    (domains : List (String × PySet)) (hdn : (domains.map Prod.fst).Nodup) (hw : ∀ e ∈ domains, WF n e.2)
    (nd : NData) (data : Dict String Src) (d : Dict String Formula) (h : cliStart lib n c ct domains (some nd) = .ok (data, d))
    (x : DName) (φ : Formula) (hφ : Dict.get? d x.value = some φ) : FormulaFor lib n domains φ x := by
  obtain ⟨U, doms, nd', raw, doms', e, h1, h2, h3, h4, h5, h6⟩ := cliStart_inv h
  cases e
  have h7 := ((C42_assert_state_iff ct hct _ _).1.1 ((C42_cegis_state_iff _ _ _ _).1 h6).2.2.2).1
  have hx : x.value ∈ requiredDomains ct := (h7 x.value).1 (Dict.get?_isSome_iff.1 (by rw [hφ]; rfl))
  obtain ⟨b1, b2⟩ := addBorders_get h2
  have hU : ∀ x : DName, Dict.get? U x.value = Dict.get? domains x.name := by
    intro x
    rw [readDomains_get hdn h1 x]
    cases Dict.get? domains x.name <;> rfl
  have hadj : ∀ y S, y ∈ requiredDomains ct → Dict.get? doms' y = some S → Dict.get? doms y = some S := by
    intro y S hy hh
    cases ct
    case CUSTOM => exact absurd rfl hct
    case LYAPUNOV | BARRIER | BARRIERALT | STABLESAFE => cases h4; exact hh
    case ROA =>
      obtain ⟨D, k1, k2⟩ := except_bind_ok h4
      cases k2
      refine get?_erase_some ?_ hh
      rintro rfl
      simp [requiredDomains, XD, XI] at hy
    case RWS | RWA | RSWS | RSWA =>
      obtain ⟨data1, k1, k2⟩ := except_bind_ok h4
      cases k2; exact hh
    case RAR =>
      obtain ⟨data1, k1, k2⟩ := except_bind_ok h4
      obtain ⟨data2, k3, k4⟩ := except_bind_ok k2
      cases k4; exact hh
  have hdom : ∀ (x : DName) S, x ≠ .XS_BORDER → x ≠ .XG_BORDER → Dict.get? doms x.value = some S → Dict.get? domains x.name = some S := by
    intro x S hx hx' hh
    rw [← hU x, ← b1 x.value (fun e => hx (DName.value_injective e)) (fun e => hx' (DName.value_injective e))]
    exact hh
  have hwf : ∀ {k S}, Dict.get? domains k = some S → WF n S := fun hk => hw _ (Dict.get?_eq_some_mem hk)
  -- the formula of a label is that of its own set, except XNF for ReachAvoidRemain
  have hent : (ct = .RAR ∧ x = .XNF ∧ ∃ F, Dict.get? doms' XF = some F ∧ F.generateComplement lib (vars n) = .ok φ) ∨
      (¬ (ct = .RAR ∧ x = .XNF) ∧ ∃ S, Dict.get? doms' x.value = some S ∧ domainFormula lib n x.value S = .ok φ) := by
    unfold initialiseDomains at h5
    split at h5
    · cases h5
    rename_i d' hd'
    by_cases hr : ct = .RAR
    · rw [if_pos hr] at h5
      obtain ⟨F, k1, k2⟩ := except_bind_ok h5
      obtain ⟨ψ, k3, k4⟩ := except_bind_ok k2
      cases k4
      rw [Dict.get?_set] at hφ
      by_cases hn : x = .XNF
      · subst hn
        rw [if_pos (show XNF = DName.XNF.value from rfl)] at hφ
        cases hφ
        exact Or.inl ⟨hr, rfl, F, getE_ok.1 k1, k3⟩
      · rw [if_neg (fun e : XNF = x.value => hn (DName.value_injective (a₁ := .XNF) e).symm)] at hφ
        exact Or.inr ⟨fun e => hn e.2, domainEntries_ne hd' hφ⟩
    · rw [if_neg hr] at h5
      cases h5
      exact Or.inr ⟨fun e => hr e.1, domainEntries_ne hd' hφ⟩
  rcases hent with ⟨rfl, rfl, F, k1, k2⟩ | ⟨hnr, S, k1, k2⟩
  · have hF := hdom .XF F (by decide) (by decide) (hadj XF F (by simp [requiredDomains]) k1)
    obtain ⟨ψ, k3, k4⟩ := C21_complement_formula_denotes_complement lib n F (hwf hF) (by rcases hlib with h | h <;> simp [h, supports])
    rw [k2] at k3; cases k3
    exact ⟨F, hF, k4⟩
  · have kS := hadj x.value S hx k1
    have hbord : isBorder x.value = true → S.generateBoundary lib (vars n) = .ok φ := by
      intro hb; simpa [domainFormula, hb] using k2
    have hplain : isBorder x.value = false → x ≠ .XS_BORDER → x ≠ .XG_BORDER →
        ∃ S, Dict.get? domains x.name = some S ∧ ∀ p : Pt n, φ.holds p.env ↔ p ∈ docSet n S := by
      intro hb g1 g2
      have hS := hdom x S g1 g2 kS
      obtain ⟨ψ, k3, k4⟩ := C21_domain_formula_denotes_set lib n S (hwf hS) (by rcases hlib with h | h <;> simp [h, supports])
      have : S.generateDomain lib (vars n) = .ok φ := by simpa [domainFormula, hb] using k2
      rw [this] at k3; cases k3
      exact ⟨S, hS, k4⟩
    have hborder : ∀ {k : String}, Dict.get? domains k = some S → isBorder x.value = true → BoundaryOK S →
        ∀ p ∈ frontier (docSet n S), φ.holds p.env := by
      intro k hk hb hB
      obtain ⟨ψ, k3, k4⟩ := C23_boundary_formula_covers_frontier lib hlib n S (hwf hk) hB
      rw [hbord hb] at k3; cases k3
      exact k4
    cases x
    case XNF =>
      exfalso
      cases ct <;> simp [requiredDomains, DName.value, XSB, XD, XI, XU, XS, XG, XGB, XF, XNF] at hx hnr
    case XS_BORDER =>
      have ht : TakesSafeSet ct := by
        unfold TakesSafeSet
        cases ct <;> simp [requiredDomains, DName.value, XSB, XD, XI, XU, XS, XG, XGB, XF, XNF] at hx ⊢
      have hS : Dict.get? domains "XS" = some S := by
        rw [show "XS" = DName.XS.name from rfl, ← hU, ← kS]
        exact (addBorders_safe ht h2).symm
      exact ⟨S, hS, hbord rfl, hborder hS rfl⟩
    case XG_BORDER =>
      have ht : ct = .RSWS ∨ ct = .RSWA := by
        cases ct <;> simp [requiredDomains, DName.value, XSB, XD, XI, XU, XS, XG, XGB, XF, XNF] at hx ⊢
      have hS : Dict.get? domains "XG" = some S := by
        rw [show "XG" = DName.XG.name from rfl, ← hU, ← kS]
        exact (b2 ht).symm
      exact ⟨S, hS, hbord rfl, hborder hS rfl⟩
    all_goals exact hplain rfl (by decide) (by decide)

/-! ### C34: the documented configurations are accepted -/

namespace Spec

/-- The sets a user gives in DOMAINS (README and example configurations). -/
def userSets : CertType → List DName
  | .LYAPUNOV => [.XD]
  | .ROA => [.XD, .XI]
  | .BARRIER | .BARRIERALT | .STABLESAFE => [.XD, .XI, .XU]
  | .RWS | .RWA | .RSWS | .RSWA => [.XD, .XI, .XS, .XG]
  | .RAR => [.XD, .XI, .XS, .XG, .XF]
  | .CUSTOM => []

/-- The names a user gives counts for in N_DATA: those of the data sets the certificate needs. -/
def countedSets : CertType → List DName
  | .LYAPUNOV => [.XD]
  | .ROA => [.XD, .XI]
  | .BARRIER | .BARRIERALT | .STABLESAFE => [.XD, .XI, .XU]
  | .RWS | .RWA => [.XD, .XI, .XU]
  | .RSWS | .RSWA => [.XD, .XI, .XU, .XS, .XG, .XG_BORDER]
  | .RAR => [.XD, .XI, .XU, .XG, .XF, .XNF]
  | .CUSTOM => []

/-- The keys of a YAML mapping are exactly these names, in any order, without repetition. -/
def KeysAre {α : Type} (l : List (String × α)) (names : List DName) : Prop :=
  (l.map Prod.fst).Perm (names.map DName.name)

end Spec

theorem KeysAre.nodup {α : Type} {l : List (String × α)} {names : List DName} (h : KeysAre l names) (hn : (names.map DName.name).Nodup) :
    (l.map Prod.fst).Nodup := (List.Perm.nodup_iff h).2 hn

theorem KeysAre.get? {α : Type} {l : List (String × α)} {names : List DName} (h : KeysAre l names) (d : DName) :
    (∃ a, Dict.get? l d.name = some a) ↔ d ∈ names := by
  rw [← Option.isSome_iff_exists, Dict.get?_isSome_iff]
  show d.name ∈ l.map Prod.fst ↔ _
  rw [List.Perm.mem_iff h, List.mem_map]
  constructor
  · rintro ⟨e, he, hh⟩
    have : e = d := by cases e <;> cases d <;> first | rfl | (exact absurd hh (by decide))
    exact this ▸ he
  · intro hd; exact ⟨d, hd, rfl⟩

theorem readDomains_ok {l : List (String × PySet)} : ∀ {acc : Dict String PySet},
    (∀ k ∈ l.map Prod.fst, ∃ d : DName, k = d.name) → ∃ U, readDomains l acc = .ok U ∧
      ∀ x, x ∈ U.keys → x ∈ acc.keys ∨ ∃ d : DName, x = d.value ∧ d.name ∈ l.map Prod.fst := by
  induction l with
  | nil => intro acc _; exact ⟨acc, rfl, fun x hx => Or.inl hx⟩
  | cons e l ih =>
    obtain ⟨k, S⟩ := e
    intro acc hk
    obtain ⟨d, rfl⟩ := hk k (by simp)
    obtain ⟨U, h1, h2⟩ := ih (acc := Dict.set acc d.value S) (fun k hk' => hk k (by simp at hk' ⊢; exact Or.inr hk'))
    refine ⟨U, ?_, fun x hx => ?_⟩
    · show (DName.ofName d.name).bind _ = _
      rw [DName.ofName_ok.2 rfl]; exact h1
    · rcases h2 x hx with h3 | ⟨d', h3, h4⟩
      · rw [Dict.mem_keys_set] at h3
        rcases h3 with rfl | h3
        · exact Or.inr ⟨d, rfl, by simp⟩
        · exact Or.inl h3
      · exact Or.inr ⟨d', h3, by simp at h4 ⊢; exact Or.inr h4⟩

theorem readDataDict_ok {doms : Dict String PySet} {l : List (String × ℕ)} : ∀ {acc : Dict String Src},
    (∀ k ∈ l.map Prod.fst, ∃ d : DName, k = d.name ∧ (d ∈ DName.borderValues → ∃ S, Dict.get? doms d.value = some S)) →
    ∃ data, readDataDict doms l acc = .ok data ∧
      ∀ x, x ∈ data.keys → x ∈ acc.keys ∨ ∃ d : DName, x = d.value ∧ d.name ∈ l.map Prod.fst := by
  induction l with
  | nil => intro acc _; exact ⟨acc, rfl, fun x hx => Or.inl hx⟩
  | cons e l ih =>
    obtain ⟨k, N⟩ := e
    intro acc hk
    obtain ⟨d, rfl, hd⟩ := hk k (by simp)
    have hk' : ∀ k ∈ l.map Prod.fst, ∃ d : DName, k = d.name ∧ (d ∈ DName.borderValues → ∃ S, Dict.get? doms d.value = some S) :=
      fun k hk' => hk k (by simp at hk' ⊢; exact Or.inr hk')
    have fin : ∀ {data : Dict String Src} {src : Src},
        (∀ x, x ∈ data.keys → x ∈ (Dict.set acc d.value src).keys ∨ ∃ d : DName, x = d.value ∧ d.name ∈ l.map Prod.fst) →
        ∀ x, x ∈ data.keys → x ∈ acc.keys ∨ ∃ d' : DName, x = d'.value ∧ d'.name ∈ List.map Prod.fst ((d.name, N) :: l) := by
      intro data src hh x hx
      rcases hh x hx with h3 | ⟨d', h3, h4⟩
      · rw [Dict.mem_keys_set] at h3
        rcases h3 with rfl | h3
        · exact Or.inr ⟨d, rfl, by simp⟩
        · exact Or.inl h3
      · exact Or.inr ⟨d', h3, by simp at h4 ⊢; exact Or.inr h4⟩
    by_cases hb : d ∈ DName.borderValues
    · obtain ⟨S, hS⟩ := hd hb
      obtain ⟨data, h1, h2⟩ := ih (acc := Dict.set acc d.value (.border S N)) hk'
      refine ⟨data, ?_, fin h2⟩
      show (DName.ofName d.name).bind _ = _
      rw [DName.ofName_ok.2 rfl]
      show (if d ∈ DName.borderValues then _ else _) = _
      rw [if_pos hb]
      show (Dict.get doms d.value).bind _ = _
      rw [get_ok.2 hS]; exact h1
    · cases hS : Dict.get? doms d.value with
      | some S =>
        obtain ⟨data, h1, h2⟩ := ih (acc := Dict.set acc d.value (.interior S N)) hk'
        refine ⟨data, ?_, fin h2⟩
        show (DName.ofName d.name).bind _ = _
        rw [DName.ofName_ok.2 rfl]
        show (if d ∈ DName.borderValues then _ else _) = _
        rw [if_neg hb, hS]; exact h1
      | none =>
        obtain ⟨data, h1, h2⟩ := ih (acc := acc) hk'
        refine ⟨data, ?_, fun x hx => ?_⟩
        · show (DName.ofName d.name).bind _ = _
          rw [DName.ofName_ok.2 rfl]
          show (if d ∈ DName.borderValues then _ else _) = _
          rw [if_neg hb, hS]; exact h1
        · rcases h2 x hx with h3 | ⟨d', h3, h4⟩
          · exact Or.inl h3
          · exact Or.inr ⟨d', h3, by simp at h4 ⊢; exact Or.inr h4⟩

theorem addBorders_ok {bs : List (DName × DName)} : ∀ {U : Dict String PySet}, (∀ b ∈ bs, b.1.value ∈ U.keys) →
    ∃ doms, addBorders bs U = .ok doms ∧ ∀ x, x ∈ doms.keys ↔ x ∈ U.keys ∨ ∃ b ∈ bs, x = b.2.value := by
  induction bs with
  | nil => intro U _; exact ⟨U, rfl, fun x => by simp⟩
  | cons b bs ih =>
    obtain ⟨b1, b2⟩ := b
    intro U hb
    obtain ⟨S, hS⟩ := Option.isSome_iff_exists.1 (Dict.get?_isSome_iff.2 (hb (b1, b2) (by simp)))
    obtain ⟨doms, h1, h2⟩ := ih (U := Dict.set U b2.value S)
      (fun b hb' => by rw [Dict.mem_keys_set]; exact Or.inr (hb b (by simp [hb'])))
    refine ⟨doms, ?_, fun x => ?_⟩
    · show (Dict.get U b1.value).bind _ = _
      rw [get_ok.2 hS]; exact h1
    · rw [h2 x, Dict.mem_keys_set]
      simp only [List.mem_cons, exists_eq_or_imp]
      tauto

theorem addMinus_ok {data : Dict String Src} {doms : Dict String PySet} {nd : NData} {label inner : DName}
    (h1 : XD ∈ doms.keys) (h2 : inner.value ∈ doms.keys) (h3 : ∃ N, nd.count label = .ok N) :
    ∃ data', addMinus data doms nd label inner = .ok data' ∧ ∀ x, x ∈ data'.keys ↔ x = label.value ∨ x ∈ data.keys := by
  obtain ⟨D, hD⟩ := Option.isSome_iff_exists.1 (Dict.get?_isSome_iff.2 h1)
  obtain ⟨I, hI⟩ := Option.isSome_iff_exists.1 (Dict.get?_isSome_iff.2 h2)
  obtain ⟨N, hN⟩ := h3
  refine ⟨Dict.set data label.value (.interior (.setMinus D I) N), ?_, fun x => Dict.mem_keys_set _ _ _ _⟩
  show (Dict.get doms XD).bind _ = _
  rw [get_ok.2 hD]
  show (Dict.get doms inner.value).bind _ = _
  rw [get_ok.2 hI]
  show (nd.count label).bind _ = _
  rw [hN]; rfl

theorem mem_keys_erase {doms : Dict String PySet} (hn : doms.keys.Nodup) (k x : String) :
    x ∈ (Dict.erase doms k).keys ↔ x ∈ doms.keys ∧ x ≠ k := by
  induction doms with
  | nil => simp [Dict.erase, Dict.keys]
  | cons e l ih =>
    obtain ⟨k', v⟩ := e
    have hn' : k' ∉ Dict.keys l ∧ (Dict.keys l).Nodup := by simpa [Dict.keys] using hn
    unfold Dict.erase
    by_cases hk : k' = k
    · rw [if_pos hk]
      subst hk
      constructor
      · intro hx
        exact ⟨List.mem_cons_of_mem _ hx, fun e => hn'.1 (e ▸ hx)⟩
      · rintro ⟨hx, hne⟩
        rcases List.mem_cons.1 hx with h | h
        · exact absurd h hne
        · exact h
    · rw [if_neg hk]
      have : ∀ l : Dict String PySet, x ∈ Dict.keys ((k', v) :: l) ↔ x = k' ∨ x ∈ Dict.keys l := fun l => List.mem_cons
      rw [this, this, ih hn'.2]
      constructor
      · rintro (rfl | ⟨h1, h2⟩)
        · exact ⟨Or.inl rfl, hk⟩
        · exact ⟨Or.inr h1, h2⟩
      · rintro ⟨rfl | h1, h2⟩
        · exact Or.inl rfl
        · exact Or.inr ⟨h1, h2⟩

theorem readDomains_nodup {l : List (String × PySet)} : ∀ {acc U : Dict String PySet}, acc.keys.Nodup →
    readDomains l acc = .ok U → U.keys.Nodup := by
  induction l with
  | nil => intro acc U h1 h2; cases h2; exact h1
  | cons e l ih =>
    intro acc U h1 h2
    obtain ⟨d, h3, h4⟩ := except_bind_ok h2
    exact ih (Dict.nodup_keys_set _ _ _ h1) h4

/-- **C34.** The documented configurations are accepted: if DOMAINS names exactly the sets the certificate takes and N_DATA is a mapping
with exactly the data sets it needs, each in any order, then the configuration is read without error, and whenever the symbolic domains
can be built from the sets and the numeric options are valid, all label checks pass. -/
theorem C34_documented_accepted (lib : Lib) (n : ℕ) (c : CheckCfg) (ct : CertType) (hct : ct ≠ .CUSTOM)
    (hlr : 0 < c.learningRate) (hmt : c.maxTimePositive = true) (hdt : c.discrete = true → ct = .LYAPUNOV ∨ ct = .BARRIERALT)
    (domains : List (String × PySet)) (hd : KeysAre domains (userSets ct))
    (counts : List (String × ℕ)) (hcn : KeysAre counts (countedSets ct)) :
    ∃ data doms, parseConfig ct domains (some (.dict counts)) = .ok (data, doms) ∧
      ∀ d, initialiseDomains lib n ct doms = .ok d → cliStart lib n c ct domains (some (.dict counts)) = .ok (data, d) := by
  have hun : ((userSets ct).map DName.name).Nodup := by cases ct <;> decide
  have hkn : ((countedSets ct).map DName.name).Nodup := by cases ct <;> decide
  obtain ⟨U, h1, h1'⟩ := readDomains_ok (l := domains) (acc := []) (fun k hk => by
    rw [List.Perm.mem_iff hd, List.mem_map] at hk; obtain ⟨d, -, rfl⟩ := hk; exact ⟨d, rfl⟩)
  have hU : ∀ x, x ∈ U.keys ↔ ∃ d ∈ userSets ct, x = d.value := by
    intro x
    constructor
    · intro hx
      rcases h1' x hx with h2 | ⟨d, rfl, h3⟩
      · cases h2
      · refine ⟨d, (KeysAre.get? hd d).1 (Option.isSome_iff_exists.1 (Dict.get?_isSome_iff.2 h3)), rfl⟩
    · rintro ⟨d, h2, rfl⟩
      obtain ⟨S, hS⟩ := (KeysAre.get? hd d).2 h2
      rw [← Dict.get?_isSome_iff, readDomains_get (KeysAre.nodup hd hun) h1 d, hS]; rfl
  obtain ⟨doms, h2, h2'⟩ := addBorders_ok (bs := ct.requiredBorders) (U := U) (by
    intro b hb
    rw [hU]
    cases ct <;> simp [CertType.requiredBorders] at hb
    case RSWS | RSWA => rcases hb with rfl | rfl <;> exact ⟨_, by simp [userSets], rfl⟩
    all_goals (subst hb; exact ⟨_, by simp [userSets], rfl⟩))
  have hdoms : ∀ d : DName, d ∈ userSets ct ∨ (∃ b ∈ ct.requiredBorders, d = b.2) ↔ d.value ∈ doms.keys := by
    intro d
    rw [h2', hU]
    constructor
    · rintro (h | ⟨b, h, rfl⟩)
      · exact Or.inl ⟨d, h, rfl⟩
      · exact Or.inr ⟨b, h, rfl⟩
    · rintro (⟨e, h, h'⟩ | ⟨b, h, h'⟩)
      · exact Or.inl (DName.value_injective h' ▸ h)
      · exact Or.inr ⟨b, h, DName.value_injective h'⟩
  obtain ⟨raw, h3, h3'⟩ := readDataDict_ok (doms := doms) (l := counts) (acc := []) (by
    intro k hk
    rw [List.Perm.mem_iff hcn, List.mem_map] at hk
    obtain ⟨d, hd', rfl⟩ := hk
    refine ⟨d, rfl, fun hb => ?_⟩
    apply Option.isSome_iff_exists.1
    rw [Dict.get?_isSome_iff, ← hdoms]
    cases ct <;> cases d <;> first | (exact absurd hb (by decide)) | (exact absurd hd' (by decide)) | (right; simp [CertType.requiredBorders]))
  have hraw : ∀ x, x ∈ raw.keys ↔ ∃ d ∈ countedSets ct, x = d.value ∧ (d ∈ userSets ct ∨ ∃ b ∈ ct.requiredBorders, d = b.2) := by
    intro x
    constructor
    · intro hx
      rcases readDataDict_keys h3 x hx with h4 | ⟨S, h4⟩
      · cases h4
      rcases h3' x hx with h5 | ⟨d, rfl, h5⟩
      · cases h5
      exact ⟨d, (KeysAre.get? hcn d).1 (Option.isSome_iff_exists.1 (Dict.get?_isSome_iff.2 h5)), rfl,
        (hdoms d).2 (Dict.get?_isSome_iff.1 (by rw [h4]; rfl))⟩
    · rintro ⟨d, h4, rfl, h5⟩
      obtain ⟨S, hS⟩ := Option.isSome_iff_exists.1 (Dict.get?_isSome_iff.2 ((hdoms d).1 h5))
      obtain ⟨N, hN⟩ := (KeysAre.get? hcn d).2 h4
      rw [← Dict.get?_isSome_iff, readDataDict_get (KeysAre.nodup hcn hkn) h3 d, hN, hS]; rfl
  have hcount : ∀ d ∈ countedSets ct, ∃ N, (NData.dict counts).count d = .ok N := fun d hd' => by
    obtain ⟨N, hN⟩ := (KeysAre.get? hcn d).2 hd'
    exact ⟨N, get_ok.2 hN⟩
  have hpc : ∀ r, adjustData ct raw doms (.dict counts) = .ok r → parseConfig ct domains (some (.dict counts)) = .ok r := by
    intro r hr
    show (readDomains domains []).bind _ = _
    rw [h1]
    show (addBorders ct.requiredBorders U).bind _ = _
    rw [h2]
    show (readDataDict doms counts []).bind _ = _
    rw [h3]; exact hr
  -- the adjusted data and domains carry the required labels
  have hadj : ∃ data doms', adjustData ct raw doms (.dict counts) = .ok (data, doms') ∧ LabelsAre data.keys (requiredData ct) ∧
      ∀ x, (x ∈ doms'.keys ∨ (ct = .RAR ∧ x = XNF)) ↔ x ∈ requiredDomains ct := by
    cases ct
    case CUSTOM => exact absurd rfl hct
    case LYAPUNOV | BARRIER | BARRIERALT | STABLESAFE =>
      refine ⟨raw, doms, rfl, fun x => ?_, fun x => ?_⟩
      · rw [hraw]; simp [countedSets, userSets, requiredData, DName.value]
      · rw [h2', hU]; simp [userSets, requiredDomains, CertType.requiredBorders, DName.value]
    case ROA =>
      obtain ⟨D, hD⟩ : ∃ D, Dict.get? doms XD = some D :=
        Option.isSome_iff_exists.1 (Dict.get?_isSome_iff.2 ((hdoms .XD).1 (by simp [userSets])))
      have hdn : doms.keys.Nodup := by cases h2; exact readDomains_nodup (by simp [Dict.keys]) h1
      refine ⟨raw, Dict.erase doms XD, ?_, fun x => ?_, fun x => ?_⟩
      · show (Dict.get doms XD).bind _ = _
        rw [get_ok.2 hD]; rfl
      · rw [hraw]; simp [countedSets, userSets, requiredData, DName.value]
      · rw [mem_keys_erase hdn, h2', hU]
        simp [userSets, requiredDomains, CertType.requiredBorders, DName.value]
        constructor
        · rintro ⟨h | h, h'⟩ <;> simp_all
        · rintro rfl; simp [XI, XD]
    case RWS | RWA | RSWS | RSWA =>
      obtain ⟨data, k1, k2⟩ := addMinus_ok (data := raw) (doms := doms) (nd := .dict counts) (label := .XU) (inner := .XS)
        ((hdoms .XD).1 (by simp [userSets])) ((hdoms .XS).1 (by simp [userSets])) (hcount _ (by simp [countedSets]))
      refine ⟨data, doms, ?_, fun x => ?_, fun x => ?_⟩
      · show (addMinus raw doms (.dict counts) .XU .XS).bind _ = _
        rw [k1]; rfl
      · rw [k2, hraw]
        simp [countedSets, userSets, requiredData, CertType.requiredBorders, DName.value]
        constructor <;> intro h <;> (repeat' (rcases h with h | h)) <;> simp
      · rw [h2', hU]
        simp [userSets, requiredDomains, CertType.requiredBorders, DName.value]
        constructor <;> intro h <;> (repeat' (rcases h with h | h)) <;> simp
    case RAR =>
      obtain ⟨data, k1, k2⟩ := addMinus_ok (data := raw) (doms := doms) (nd := .dict counts) (label := .XU) (inner := .XS)
        ((hdoms .XD).1 (by simp [userSets])) ((hdoms .XS).1 (by simp [userSets])) (hcount _ (by simp [countedSets]))
      obtain ⟨data', k3, k4⟩ := addMinus_ok (data := data) (doms := doms) (nd := .dict counts) (label := .XNF) (inner := .XF)
        ((hdoms .XD).1 (by simp [userSets])) ((hdoms .XF).1 (by simp [userSets])) (hcount _ (by simp [countedSets]))
      refine ⟨data', doms, ?_, fun x => ?_, fun x => ?_⟩
      · show (addMinus raw doms (.dict counts) .XU .XS).bind _ = _
        rw [k1]
        show (addMinus data doms (.dict counts) .XNF .XF).bind _ = _
        rw [k3]; rfl
      · rw [k4, k2, hraw]
        simp [countedSets, userSets, requiredData, CertType.requiredBorders, DName.value]
        constructor <;> intro h <;> (repeat' (rcases h with h | h)) <;> simp
      · rw [h2', hU]
        simp [userSets, requiredDomains, CertType.requiredBorders, DName.value]
        constructor <;> intro h <;> (repeat' (rcases h with h | h)) <;> simp
  obtain ⟨data, doms', h4, h5, h6⟩ := hadj
  refine ⟨data, doms', hpc _ h4, fun d hini => ?_⟩
  show (parseConfig ct domains (some (.dict counts))).bind _ = _
  rw [hpc _ h4]
  show (initialiseDomains lib n ct doms').bind _ = _
  rw [hini]
  show (cegisAssertState c ct d.keys data.keys).bind _ = _
  have : cegisAssertState c ct d.keys data.keys = .ok () := by
    rw [C42_cegis_state_iff]
    refine ⟨hlr, hmt, hdt, (C42_assert_state_iff ct hct _ _).1.2 ⟨fun x => ?_, Or.inl h5⟩⟩
    rw [initialise_keys hini, h6]
  rw [this]; rfl

/-! ### C34: the order of the data dictionary -/

theorem keys_set_of_mem {α : Type _} {d : Dict String α} {k : String} {v : α} (h : k ∈ d.keys) : (Dict.set d k v).keys = d.keys := by
  rw [Dict.keys_set, if_pos h]

theorem keys_set_of_not_mem {α : Type _} {d : Dict String α} {k : String} {v : α} (h : k ∉ d.keys) :
    (Dict.set d k v).keys = d.keys ++ [k] := by
  rw [Dict.keys_set, if_neg h]

/-- **C34, the defect.** In every ReachAvoidRemain configuration accepted from the command line the goal data come before the unsafe data
in the data dictionary (the unsafe data are appended when everything else has been read). `ReachAvoidRemain.learn` reads stored
derivatives in dictionary order but samples in the order XD, XI, XU, XG, XF, XNF, so without a controller it never gets the order it
assumes, whatever order the user writes. -/
theorem C34_rar_order (lib : Lib) (n : ℕ) (c : CheckCfg) (domains : List (String × PySet)) (nd : Option NData)
    (data : Dict String Src) (d : Dict String Formula) (h : cliStart lib n c .RAR domains nd = .ok (data, d)) :
    (∃ pre post, data.keys = pre ++ XU :: post ∧ XG ∈ pre ∧ XD ∈ pre ∧ XI ∈ pre ∧ XF ∈ pre) ∧
    data.keys ≠ [XD, XI, XU, XG, XF, XNF] := by
  obtain ⟨U, doms, nd', raw, doms', rfl, h1, h2, h3, h4, h5, h6⟩ := cliStart_inv h
  obtain ⟨data1, k1, k2⟩ := except_bind_ok h4
  obtain ⟨data2, k3, k4⟩ := except_bind_ok k2
  cases k4
  obtain ⟨D, S, N, -, -, -, rfl⟩ := addMinus_inv k1
  obtain ⟨D', F, N', -, -, -, rfl⟩ := addMinus_inv k3
  have h7 := (C42_assert_state_iff .RAR (by decide) _ _).1.1 ((C42_cegis_state_iff _ _ _ _).1 h6).2.2.2
  have hdoms : XU ∉ doms.keys := by
    intro hx
    have := (h7.1 XU).1 ((initialise_keys h5 XU).2 (Or.inl hx))
    simp [requiredDomains, XSB, XD, XI, XU, XS, XG, XF, XNF] at this
  have hraw : XU ∉ raw.keys := by
    intro hx
    apply hdoms
    cases nd' with
    | int N =>
      cases h3
      rw [← Dict.get?_isSome_iff, readDataInt_get, Option.isSome_map, Dict.get?_isSome_iff] at hx
      exact hx
    | dict l =>
      rcases readDataDict_keys h3 XU hx with h7 | ⟨S, h7⟩
      · cases h7
      · rw [← Dict.get?_isSome_iff, h7]; rfl
  have hlab : ∀ x ∈ requiredData .RAR, x ≠ XU → x ≠ XNF → x ∈ raw.keys := by
    intro x hx hne hne'
    rcases h7.2 with h8 | ⟨h8, -⟩
    · have := (h8 x).2 hx
      rw [Dict.mem_keys_set, Dict.mem_keys_set] at this
      rcases this with h9 | h9 | h9
      · exact absurd h9 hne'
      · exact absurd h9 hne
      · exact h9
    · cases h8
  have e1 : (Dict.set raw DName.XU.value (Src.interior (.setMinus D S) N)).keys = raw.keys ++ [XU] := keys_set_of_not_mem hraw
  have hpre : ∃ post, (Dict.set (Dict.set raw DName.XU.value (Src.interior (.setMinus D S) N)) DName.XNF.value
      (.interior (.setMinus D' F) N')).keys = raw.keys ++ XU :: post := by
    by_cases hx : DName.XNF.value ∈ (Dict.set raw DName.XU.value (Src.interior (.setMinus D S) N)).keys
    · exact ⟨[], by rw [keys_set_of_mem hx, e1]⟩
    · exact ⟨[XNF], by rw [keys_set_of_not_mem hx, e1, List.append_assoc]; rfl⟩
  obtain ⟨post, hpost⟩ := hpre
  have hg : XG ∈ raw.keys := hlab XG (by simp [requiredData]) (by decide) (by decide)
  refine ⟨⟨raw.keys, post, hpost, hg, hlab XD (by simp [requiredData]) (by decide) (by decide),
    hlab XI (by simp [requiredData]) (by decide) (by decide), hlab XF (by simp [requiredData]) (by decide) (by decide)⟩, ?_⟩
  rw [hpost]
  intro e
  have hi : ∀ l : List String, l ++ XU :: post = [XD, XI, XU, XG, XF, XNF] → XU ∉ l → XG ∉ l := by
    intro l hl hu hg'
    rcases l with _ | ⟨a, _ | ⟨b, _ | ⟨c, l⟩⟩⟩
    · cases hg'
    · simp at hl; simp [hl.1] at hg'; exact absurd hg' (by decide)
    · simp at hl; simp [hl.1, hl.2.1] at hg'; exact absurd hg' (by decide)
    · simp at hl; exact hu (by simp [hl.2.2.1])
  exact hi _ e hraw hg

/-- The data of the next theorem, in the order the command line produces (cf. experiments/benchmarks/cli/rar-test.yaml). -/
def exCliS : Dict String (List ℝ) := [(XD, [-2]), (XI, [-1]), (XG, [-1]), (XF, [0]), (XU, [5]), (XNF, [1])]
/-- Derivatives belonging to `exCliS` (label by label). -/
def exCliSdot : Dict String (List ℝ) := [(XD, [-1]), (XI, [-1]), (XG, [-1]), (XF, [1]), (XU, [-1]), (XNF, [-1])]

/-- **C34, the defect.** With data in the order of the command line a training pass reports complete success for the remain part although
the barrier increases at the sample 0 of the final set, on the zero level (derivative 1, paired with the goal sample instead). -/
theorem C34_rar_misattributed :
    let v : Values Unit ℝ := ⟨fun _ x => x, fun _ _ d => d⟩
    rarPass false v v none exCliS exCliSdot () = .ok ((100, 100), (100, 100)) ∧
    ∃ p d, Dict.get exCliS XF = .ok [p] ∧ Dict.get exCliSdot XF = .ok [d] ∧ v.val () p = 0 ∧ ¬ v.lie () p d ≤ 0 := by
  refine ⟨?_, 0, 1, rfl, rfl, rfl, by norm_num⟩
  have h1 : rwsAcc [(-1:ℝ)] [5] [-2] [-1] = .ok (100, 100) := by
    have h3 : initUnsafeAcc 0 [(-1:ℝ)] [5] = .ok 100 := by rw [C44_init_unsafe_accuracy]; norm_num
    have h4 : lieVals [(-2:ℝ)] [-1] = [-1] := by simp [lieVals]
    simp [rwsAcc, h3, h4, bind, Except.bind, pure, Except.pure, countNonzero]; norm_num
  have h2 : barrierAcc false [(-1:ℝ)] [1] [-1, 0, 1] [1, -1, -1] = .ok (100, 100) := by
    have h3 : initUnsafeAcc 0 [(-1:ℝ)] [1] = .ok 100 := by rw [C44_init_unsafe_accuracy]; norm_num
    have h4 : beltVals false [(-1:ℝ), 0, 1] [1, -1, -1] = [-1, -1] := by
      simp [beltVals, List.filter_cons]
    simp [barrierAcc, h3, h4, bind, Except.bind, pure, Except.pure, countNonzero]
  have e : rarPass false (⟨fun _ x => x, fun _ _ d => d⟩ : Values Unit ℝ) ⟨fun _ x => x, fun _ _ d => d⟩ none exCliS exCliSdot () = (do
      let a ← rwsAcc [(-1:ℝ)] [5] [-2] [-1]
      let c ← barrierAcc false [(-1:ℝ)] [1] [-1, 0, 1] [1, -1, -1]
      return (a, c)) := rfl
  rw [e, h1, h2]
  rfl

/-! ### concrete configurations -/

/-- The sets of experiments/benchmarks/cli/rar-test.yaml. -/
def exYamlDomains : List (String × PySet) :=
  [("XD", .sphere [0, 0] (11/10) none), ("XI", .sphere [0, 0] (1/10) none), ("XG", .sphere [0, 0] (5/100) none),
   ("XS", .sphere [0, 0] 1 none), ("XF", .sphere [0, 0] (75/1000) none)]
/-- Its counts. -/
def exYamlCounts : List (String × ℕ) := [("XD", 1001), ("XI", 1002), ("XU", 1003), ("XG", 1004), ("XF", 1005), ("XNF", 1006)]

/-- Valid numeric options. -/
def exOptions : CheckCfg := ⟨1/10, true, false⟩

theorem exOptions_ok (ct : CertType) (a b : List String) : cegisAssertState exOptions ct a b = assertState ct a b := by
  simp [cegisAssertState, exOptions]

/-- That configuration is accepted, and the data dictionary has the order of `exCliS`. -/
example : ∃ data d, cliStart .dreal 2 exOptions .RAR exYamlDomains (some (.dict exYamlCounts)) = .ok (data, d) ∧
    data.keys = exCliS.keys := by
  obtain ⟨data, doms, h1, h2⟩ := C34_documented_accepted .dreal 2 exOptions .RAR (by decide) (by norm_num [exOptions]) rfl
    (by simp [exOptions]) exYamlDomains (by unfold KeysAre; decide) exYamlCounts (by unfold KeysAre; decide)
  have h3 := h1
  cases h3
  exact ⟨_, _, h2 _ rfl, rfl⟩

/-- `C34_accepted_formulas` on that configuration: the formula of the safe border holds on the unit circle. -/
example : ∃ data d φ, cliStart .dreal 2 exOptions .RAR exYamlDomains (some (.dict exYamlCounts)) = .ok (data, d) ∧
    Dict.get? d XSB = some φ ∧ φ.holds (Pt.env (n := 2) ![1, 0]) := by
  obtain ⟨data, doms, h1, h2⟩ := C34_documented_accepted .dreal 2 exOptions .RAR (by decide) (by norm_num [exOptions]) rfl
    (by simp [exOptions]) exYamlDomains (by unfold KeysAre; decide) exYamlCounts (by unfold KeysAre; decide)
  have h3 := h1
  cases h3
  refine ⟨_, _, _, h2 _ rfl, rfl, ?_⟩
  have h4 := C34_accepted_formulas .dreal (Or.inr rfl) 2 exOptions .RAR (by decide) exYamlDomains (by decide)
    (by simp [exYamlDomains, WF, selCount, selOk]; norm_num) _ _ _ (h2 _ rfl) .XS_BORDER _ rfl
  obtain ⟨S, h5, h6, h7⟩ := h4
  cases h5
  refine h7 trivial _ ?_
  have : docSet 2 (.sphere [0, 0] 1 none) = {p : Pt 2 | p 0 ^ 2 + p 1 ^ 2 ≤ 1} := by
    ext p
    simp [docSet, coords, reals, euclid, Real.sqrt_le_one]
  rw [this, frontier, Set.mem_diff]
  refine ⟨subset_closure (by simp), fun hin => ?_⟩
  rw [mem_interior_iff_mem_nhds] at hin
  have hc : Continuous (fun t : ℝ => (![1 + t, 0] : Pt 2)) := by
    refine continuous_pi fun i => ?_
    fin_cases i
    · exact (continuous_add_left (1:ℝ))
    · simpa using continuous_const
  have h8 := hc.continuousAt.preimage_mem_nhds (x := 0) (by simpa using hin)
  obtain ⟨ε, hε, h9⟩ := Metric.mem_nhds_iff.1 h8
  have h10 := h9 (show ε/2 ∈ Metric.ball (0:ℝ) ε by simp [abs_of_pos hε]; linarith)
  simp at h10
  rw [abs_of_pos (by linarith)] at h10
  linarith

example : KeysAre exYamlDomains (userSets .RAR) ∧ KeysAre exYamlCounts (countedSets .RAR) := by
  constructor <;> (unfold KeysAre; decide)

/-- With a single integer the same configuration is rejected. -/
example : cliStart .dreal 2 exOptions .RAR exYamlDomains (some (.int 500)) = .error .valueError := by
  show (cegisAssertState exOptions .RAR _ _).bind _ = _
  rw [exOptions_ok]; rfl

/-- An integer is fine for a Lyapunov function. -/
example : ∃ r, cliStart .z3 2 exOptions .LYAPUNOV [("XD", .sphere [0, 0] 1 none)] (some (.int 500)) = .ok r := by
  show ∃ r, (cegisAssertState exOptions .LYAPUNOV _ _).bind _ = .ok r
  rw [exOptions_ok]; exact ⟨_, rfl⟩

/-- A set named in N_DATA but not in DOMAINS is dropped without a message, so the configuration fails later. -/
example : cliStart .z3 2 exOptions .BARRIER [("XD", .sphere [0, 0] 1 none), ("XI", .sphere [0, 0] 1 none)]
    (some (.dict [("XD", 5), ("XI", 5), ("XU", 5)])) = .error .valueError := by
  show (cegisAssertState exOptions .BARRIER _ _).bind _ = _
  rw [exOptions_ok]; rfl

end Fossil
