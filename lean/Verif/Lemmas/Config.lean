/- From the texts of a configuration file to the sets and vector fields they describe, and the guarantees of a run in these terms. -/
import Verif.Props.C32_Sound
import Verif.Config
import Verif.Spec.Config
import Verif.Props.C32_Text
import Verif.Props.C55_DomainText
import Verif.Props.C34_Cli
import Verif.Props.C38_Controller
import Verif.Props.C46_EndToEnd
import Verif.Props.C47_Stability

namespace Fossil

open Spec Set
open scoped Topology

/-! ### the sets -/

theorem zip_sum_fin {n : ℕ} (c : List ℚ) (p : Pt n) (h : c.length = n) :
    (List.zipWith (fun a b => (a - b) ^ 2) (List.ofFn p) (reals c)).sum = distSq c p := by
  subst h
  have : List.zipWith (fun a b => (a - b) ^ 2) (List.ofFn p) (reals c) = List.ofFn (fun i : Fin c.length => (p i - entry c i) ^ 2) := by
    apply List.ext_getElem
    · simp [reals]
    · intro i h1 h2
      simp only [List.length_ofFn] at h2
      simp [reals, entry, List.getD_eq_getElem?_getD, List.getElem?_eq_getElem h2]
  rw [this, List.sum_ofFn]
  rfl

theorem distSq_nonneg {n : ℕ} (c : List ℚ) (p : Pt n) : 0 ≤ distSq c p := Finset.sum_nonneg fun _ _ => sq_nonneg _

theorem euclid_distSq {n : ℕ} (c : List ℚ) (p : Pt n) (h : c.length = n) : euclid (coords none p) (reals c) = Real.sqrt (distSq c p) := by
  rw [euclid, show coords none p = List.ofFn p from rfl, zip_sum_fin c p h]

theorem sqrt_le_rat {x : ℝ} {r : ℚ} (hr : 0 ≤ r) : Real.sqrt x ≤ r ↔ x ≤ (r : ℝ) ^ 2 := by
  have : (0 : ℝ) ≤ r := by exact_mod_cast hr
  rw [Real.sqrt_le_left this]

theorem le_sqrt_rat {x : ℝ} {r : ℚ} (hr : 0 ≤ r) (hx : 0 ≤ x) : (r : ℝ) ≤ Real.sqrt x ↔ (r : ℝ) ^ 2 ≤ x := by
  have : (0 : ℝ) ≤ r := by exact_mod_cast hr
  exact Real.le_sqrt this hx

theorem rectangle_doc {n : ℕ} {l u : List ℚ} (e1 : l.length = n) (e2 : u.length = n) :
    docSet n (.rectangle l u none) = {p | ∀ i : Fin n, entry l i ≤ p i ∧ p i ≤ entry u i} := by
  ext p
  simp only [docSet, Set.mem_ofPred_eq, coords, reals, List.forall₂_iff_get, List.length_map, List.length_ofFn, List.get_eq_getElem, List.getElem_map,
    List.getElem_ofFn, entry]
  constructor
  · rintro ⟨⟨-, ha⟩, -, hb⟩ i
    have a := ha i (by rw [e1]; exact i.2) i.2
    have b := hb i i.2 (by rw [e2]; exact i.2)
    simp only [Fin.eta] at a b
    rw [List.getD_eq_getElem?_getD, List.getElem?_eq_getElem (by rw [e1]; exact i.2), List.getD_eq_getElem?_getD,
      List.getElem?_eq_getElem (by rw [e2]; exact i.2)]
    exact ⟨a, b⟩
  · intro h
    refine ⟨⟨e1, fun i h1 h2 => ?_⟩, e2.symm, fun i h1 h2 => ?_⟩
    · have := (h ⟨i, h2⟩).1
      rwa [List.getD_eq_getElem?_getD, List.getElem?_eq_getElem h1] at this
    · have := (h ⟨i, h1⟩).2
      rwa [List.getD_eq_getElem?_getD, List.getElem?_eq_getElem h2] at this

/-- A text that describes a set is parsed to a well-formed set expression for it. -/
theorem setText_parse {n : ℕ} {s : String} {S : Set (Pt n)} (h : SetText n s S) :
    ∃ P, parseDomain s = .ok P ∧ WF n P ∧ BoundaryOK P ∧ docSet n P = S := by
  cases h with
  | rectangle hl hu e1 e2 hs => exact ⟨_, C55_rectangle_text _ _ _ _ hl hu _ hs, ⟨e1, e2, Or.inl rfl⟩, trivial, rectangle_doc e1 e2⟩
  | @sphere cs rs c r s hc hr e1 h0 hs =>
    refine ⟨_, C55_sphere_text _ _ _ _ hc hr _ hs, ⟨e1, trivial, h0⟩, trivial, ?_⟩
    ext p
    simp only [docSet, Set.mem_ofPred_eq, euclid_distSq c p e1, sqrt_le_rat h0]
  | @torus cs os is c ro ri s hc ho hi e1 h0 hlt hs =>
    refine ⟨.torus c ro ri none, by rw [C55_torus_text _ _ _ _ _ _ hc ho hi _ hs, if_pos hlt], ⟨e1, trivial, h0, hlt⟩, Or.inl rfl, ?_⟩
    ext p
    simp only [docSet, Set.mem_ofPred_eq, euclid_distSq c p e1, sqrt_le_rat (h0.trans hlt.le), le_sqrt_rat h0 (distSq_nonneg c p)]

theorem readDomainTexts_get : ∀ {l : List (String × String)} {D : List (String × PySet)}, readDomainTexts l = .ok D →
    D.map Prod.fst = l.map Prod.fst ∧ (∀ k s, (k, s) ∈ l → ∃ S, parseDomain s = .ok S ∧ (k, S) ∈ D) ∧
      ∀ k S, (k, S) ∈ D → ∃ s, (k, s) ∈ l ∧ parseDomain s = .ok S := by
  intro l
  induction l with
  | nil => intro D h; cases h; simp
  | cons e l ih =>
    obtain ⟨k, s⟩ := e
    intro D h
    obtain ⟨S, h1, h⟩ := except_bind_ok h
    obtain ⟨r, h2, h⟩ := except_bind_ok h
    cases h
    obtain ⟨i1, i2, i3⟩ := ih h2
    refine ⟨by simp [i1], ?_, ?_⟩
    · intro k' s' hm
      rcases List.mem_cons.1 hm with e | hm
      · cases e; exact ⟨S, h1, by simp⟩
      · obtain ⟨S', a, b⟩ := i2 k' s' hm
        exact ⟨S', a, by simp [b]⟩
    · intro k' S' hm
      rcases List.mem_cons.1 hm with e | hm
      · cases e; exact ⟨s, by simp, h1⟩
      · obtain ⟨s', a, b⟩ := i3 k' S' hm
        exact ⟨s', by simp [a], b⟩

theorem get?_of_mem_nodup {α : Type _} {k : String} {v : α} : ∀ {l : List (String × α)}, (l.map Prod.fst).Nodup → (k, v) ∈ l →
    Dict.get? l k = some v := by
  intro l
  induction l with
  | nil => intro _ h; cases h
  | cons e l ih =>
    obtain ⟨k', v'⟩ := e
    intro hn hm
    simp only [List.map_cons, List.nodup_cons] at hn
    rw [Dict.get?_cons]
    rcases List.mem_cons.1 hm with e | hm
    · cases e; simp
    · rw [if_neg, ih hn.2 hm]
      rintro rfl
      exact hn.1 (List.mem_map.2 ⟨_, hm, rfl⟩)

/-! ### the configuration -/

/-- Every text under `DOMAINS` describes a set, and the keys are distinct. -/
structure DomainsDescribed (c : ConfigText) : Prop where
  keys : (c.domains.map Prod.fst).Nodup
  texts : ∀ k s, (k, s) ∈ c.domains → ∃ S, SetText c.nVars s S

theorem readSets_inv {c : ConfigText} {cfg : SynthCfg} {data : Dict String Src} (h : readSets c = .ok (cfg, data)) :
    ∃ D d, readDomainTexts c.domains = .ok D ∧ parseConfig c.cert D c.nData = .ok (data, cfg.domains) ∧
      cliStart c.lib c.nVars c.check c.cert D c.nData = .ok (data, d) ∧
      cfg = ⟨c.lib, c.nVars, c.cert, cfg.domains, c.llo, c.rounding, c.quad, c.maxIters⟩ := by
  obtain ⟨D, h2, h⟩ := except_bind_ok h
  obtain ⟨⟨data, doms⟩, h3, h⟩ := except_bind_ok h
  obtain ⟨d, h4, h⟩ := except_bind_ok h
  obtain ⟨u, h5, h⟩ := except_bind_ok h
  cases h
  refine ⟨D, d, h2, h3, ?_, rfl⟩
  simp only [cliStart, h3, h4, h5, Bind.bind, Except.bind, pure, Except.pure]

theorem readSets_ok {c : ConfigText} {D data doms d} (h1 : readDomainTexts c.domains = .ok D) (h2 : parseConfig c.cert D c.nData = .ok (data, doms))
    (h3 : initialiseDomains c.lib c.nVars c.cert doms = .ok d) (h4 : ¬ c.check.learningRate ≤ 0) (h5 : c.check.maxTimePositive = true)
    (h6 : c.check.discrete = false ∨ c.cert = .LYAPUNOV) (h7 : assertState c.cert d.keys data.keys = .ok ()) :
    readSets c = .ok (⟨c.lib, c.nVars, c.cert, doms, c.llo, c.rounding, c.quad, c.maxIters⟩, data) := by
  have hk : cegisAssertState c.check c.cert d.keys data.keys = .ok () := by
    unfold cegisAssertState
    refine (if_neg h4).trans ?_
    rw [h5]
    rcases h6 with h6 | h6
    · rw [h6]; exact h7
    · have e : (c.check.discrete && !(c.cert == CertType.LYAPUNOV || c.cert == CertType.BARRIERALT)) = false := by
        rw [h6, Bool.and_eq_false_iff]; right; rfl
      rw [e]; exact h7
  simp only [readSets, h1, h2, h3, hk, Bind.bind, Except.bind, pure, Except.pure]

theorem readConfig_ok {c : ConfigText} {f cfg data} (h1 : readSystem c.lib c.nVars c.system = .ok f) (h2 : readSets c = .ok (cfg, data)) :
    readConfig c = .ok ⟨cfg, f, data⟩ := by
  simp only [readConfig, h1, h2, Bind.bind, Except.bind, pure, Except.pure]

theorem readConfig_inv {c : ConfigText} {r : Ready} (h : readConfig c = .ok r) :
    readSystem c.lib c.nVars c.system = .ok r.f ∧ readSets c = .ok (r.cfg, r.data) := by
  obtain ⟨f, h1, h⟩ := except_bind_ok h
  obtain ⟨⟨cfg, data⟩, h2, h⟩ := except_bind_ok h
  cases h
  exact ⟨h1, h2⟩

theorem get?_erase_ne {α : Type _} {B : Dict String α} {k x : String} (hne : x ≠ k) : Dict.get? (Dict.erase B k) x = Dict.get? B x := by
  induction B with
  | nil => rfl
  | cons e B ih =>
    obtain ⟨k', b⟩ := e
    unfold Dict.erase
    by_cases hk : k' = k
    · rw [if_pos hk, Dict.get?_cons, if_neg (fun e => hne (e.symm.trans hk))]
    · rw [if_neg hk, Dict.get?_cons, Dict.get?_cons]
      by_cases hk' : k' = x
      · rw [if_pos hk', if_pos hk']
      · rw [if_neg hk', if_neg hk']; exact ih

/-- The sets the loop is started with, by label. -/
theorem parseConfig_get {ct : CertType} {D : List (String × PySet)} (hn : (D.map Prod.fst).Nodup) {nd : Option NData}
    {data : Dict String Src} {doms : Dict String PySet} (h : parseConfig ct D nd = .ok (data, doms)) :
    (∀ x : DName, x ≠ .XS_BORDER → x ≠ .XG_BORDER → (x = .XD → ct ≠ .ROA) → Dict.get? doms x.value = Dict.get? D x.name) ∧
    (TakesSafeSet ct → Dict.get? doms XSB = Dict.get? D "XS") ∧
    ((ct = .RSWS ∨ ct = .RSWA) → Dict.get? doms XGB = Dict.get? D "XG") := by
  obtain ⟨U, h1, h⟩ := except_bind_ok h
  obtain ⟨B, h2, h⟩ := except_bind_ok h
  have hU : ∀ x : DName, Dict.get? U x.value = Dict.get? D x.name := by
    intro x
    rw [readDomains_get hn h1 x]
    cases Dict.get? D x.name <;> rfl
  obtain ⟨b1, b2⟩ := addBorders_get h2
  have main : ∀ {nd' : NData} {raw : Dict String Src}, adjustData ct raw B nd' = .ok (data, doms) →
      ∀ x : String, (x = XD → ct ≠ .ROA) → Dict.get? doms x = Dict.get? B x := by
    intro nd' raw h4 x hx
    cases ct
    case CUSTOM | LYAPUNOV | BARRIER | BARRIERALT | STABLESAFE => cases h4; rfl
    case ROA =>
      obtain ⟨D, k1, k2⟩ := except_bind_ok h4
      cases k2
      exact get?_erase_ne (fun e => hx e rfl)
    case RWS | RWA | RSWS | RSWA =>
      obtain ⟨data1, k1, k2⟩ := except_bind_ok h4
      cases k2; rfl
    case RAR =>
      obtain ⟨data1, k1, k2⟩ := except_bind_ok h4
      obtain ⟨data2, k3, k4⟩ := except_bind_ok k2
      cases k4; rfl
  have main' : ∀ x : String, (x = XD → ct ≠ .ROA) → Dict.get? doms x = Dict.get? B x := by
    cases nd with
    | none => cases h
    | some nd =>
      cases nd with
      | int N => exact main h
      | dict l =>
        obtain ⟨raw, h3, h4⟩ := except_bind_ok h
        exact main h4
  refine ⟨fun x h3 h4 h5 => ?_, fun ht => ?_, fun ht => ?_⟩
  · rw [main' _ (fun e => h5 (DName.value_injective (e.trans (show XD = DName.XD.value from rfl)))),
      b1 x.value (fun e => h3 (DName.value_injective e)) (fun e => h4 (DName.value_injective e)), hU]
  · rw [main' _ (by intro e; exact absurd e (by decide)), addBorders_safe ht h2]
    exact hU .XS
  · rw [main' _ (by intro e; exact absurd e (by decide)), b2 ht]
    exact hU .XG

theorem adjust_subset {ct : CertType} {raw data : Dict String Src} {B doms : Dict String PySet} {nd : NData}
    (h : adjustData ct raw B nd = .ok (data, doms)) : ∀ e ∈ doms, e ∈ B := by
  have er : ∀ (B : Dict String PySet) k, ∀ e ∈ Dict.erase B k, e ∈ B := by
    intro B k
    induction B with
    | nil => intro e he; exact he
    | cons a B ih =>
      obtain ⟨k', v⟩ := a
      intro e he
      unfold Dict.erase at he
      split_ifs at he
      · simp [he]
      · rcases List.mem_cons.1 he with h | h
        · simp [h]
        · simp [ih e h]
  cases ct
  case CUSTOM | LYAPUNOV | BARRIER | BARRIERALT | STABLESAFE => cases h; exact fun e he => he
  case ROA =>
    obtain ⟨D, k1, k2⟩ := except_bind_ok h
    cases k2
    exact er B XD
  case RWS | RWA | RSWS | RSWA =>
    obtain ⟨data1, k1, k2⟩ := except_bind_ok h
    cases k2; exact fun e he => he
  case RAR =>
    obtain ⟨data1, k1, k2⟩ := except_bind_ok h
    obtain ⟨data2, k3, k4⟩ := except_bind_ok k2
    cases k4; exact fun e he => he

theorem parseConfig_all {Q : PySet → Prop} {ct : CertType} {D : List (String × PySet)} (hw : ∀ e ∈ D, Q e.2) {nd : Option NData}
    {data : Dict String Src} {doms : Dict String PySet} (h : parseConfig ct D nd = .ok (data, doms)) : ∀ e ∈ doms, Q e.2 := by
  obtain ⟨U, h1, h⟩ := except_bind_ok h
  obtain ⟨B, h2, h⟩ := except_bind_ok h
  have rd : ∀ (l : List (String × PySet)) (acc U : Dict String PySet), (∀ e ∈ l, Q e.2) → (∀ e ∈ acc, Q e.2) → readDomains l acc = .ok U →
      ∀ e ∈ U, Q e.2 := by
    intro l
    induction l with
    | nil => intro acc U _ ha h; cases h; exact ha
    | cons a l ih =>
      obtain ⟨k, S⟩ := a
      intro acc U hl ha h
      obtain ⟨d, h1, h2⟩ := except_bind_ok h
      refine ih _ U (fun e he => hl e (by simp [he])) (fun e he => ?_) h2
      rcases mem_set e he with h | h
      · rw [h]; exact hl (k, S) (by simp)
      · exact ha e h
  have ab : ∀ (bs : List (DName × DName)) (U B : Dict String PySet), (∀ e ∈ U, Q e.2) → addBorders bs U = .ok B → ∀ e ∈ B, Q e.2 := by
    intro bs
    induction bs with
    | nil => intro U B hU h; cases h; exact hU
    | cons b bs ih =>
      obtain ⟨x, y⟩ := b
      intro U B hU h
      obtain ⟨S, h1, h2⟩ := except_bind_ok h
      refine ih _ B (fun e he => ?_) h2
      rcases mem_set e he with h | h
      · rw [h]; exact hU _ (Dict.get?_eq_some_mem (get_ok.1 h1))
      · exact hU e h
  have hB := ab _ U B (rd D [] U hw (by simp) h1) h2
  cases nd with
  | none => cases h
  | some nd =>
    cases nd with
    | int N => exact fun e he => hB e (adjust_subset h e he)
    | dict l =>
      obtain ⟨raw, h3, h4⟩ := except_bind_ok h
      exact fun e he => hB e (adjust_subset h4 e he)

theorem parseConfig_wf {n : ℕ} {ct : CertType} {D : List (String × PySet)} (hw : ∀ e ∈ D, WF n e.2) {nd : Option NData}
    {data : Dict String Src} {doms : Dict String PySet} (h : parseConfig ct D nd = .ok (data, doms)) : WFDomains n doms :=
  parseConfig_all (Q := WF n) hw h

/-- The sets of a described configuration are well-formed and cover their borders. -/
theorem config_wf {c : ConfigText} (hd : DomainsDescribed c) {D : List (String × PySet)} (h : readDomainTexts c.domains = .ok D) :
    ∀ e ∈ D, WF c.nVars e.2 ∧ BoundaryOK e.2 := by
  rintro ⟨k, S⟩ he
  obtain ⟨s, h1, h2⟩ := (readDomainTexts_get h).2.2 k S he
  obtain ⟨T, hT⟩ := hd.texts k s h1
  obtain ⟨P, h3, h4, h5, -⟩ := setText_parse hT
  rw [h2] at h3
  cases h3
  exact ⟨h4, h5⟩

/-- The sets the loop works with are those described by the texts. -/
theorem config_region {c : ConfigText} (hd : DomainsDescribed c) {cfg : SynthCfg} {data} (h : readSets c = .ok (cfg, data)) (x : DName) (hx : x ≠ .XS_BORDER)
    (hx' : x ≠ .XG_BORDER) (hroa : x = .XD → c.cert ≠ .ROA) {S : Set (Pt c.nVars)} (hS : Configures c.nVars c.domains x.name S) :
    region c.nVars cfg.domains x.value = S := by
  obtain ⟨D, d, h2, h3, -⟩ := readSets_inv h
  obtain ⟨e1, e2, e3⟩ := readDomainTexts_get h2
  obtain ⟨s, hm, hs⟩ := hS
  obtain ⟨P, hp, hw, hb, hdoc⟩ := setText_parse hs
  obtain ⟨P', hp', hm'⟩ := e2 _ _ hm
  rw [hp] at hp'
  cases hp'
  have hn : (D.map Prod.fst).Nodup := by rw [e1]; exact hd.keys
  rw [region, (parseConfig_get hn h3).1 x hx hx' hroa, get?_of_mem_nodup hn hm']
  exact hdoc

theorem mapM_parse {funcs : FName → Bool} : ∀ (texts : List String) (sys : List AExpr), texts.mapM (parseText funcs) = .ok sys → sys.length = texts.length ∧
    ∀ i (hi : i < texts.length), ∃ e, sys[i]? = some e ∧ parseText funcs texts[i] = .ok e := by
  intro texts
  induction texts with
  | nil => intro sys h; cases h; simp
  | cons t texts ih =>
    intro sys h
    rw [List.mapM_cons] at h
    obtain ⟨e, k1, h⟩ := except_bind_ok h
    obtain ⟨sys', k2, h⟩ := except_bind_ok h
    cases h
    obtain ⟨i1, i2⟩ := ih _ k2
    refine ⟨by simp [i1], fun i hi => ?_⟩
    cases i with
    | zero => exact ⟨e, rfl, k1⟩
    | succ i => exact i2 i (by simpa using hi)

theorem mapM_term {σ : ℕ → Option Term} : ∀ (sys : List AExpr) (f : List Term), sys.mapM (AExpr.toTerm? σ) = some f → f.length = sys.length ∧
    (∀ (i : ℕ) (e : AExpr), sys[i]? = some e → ∃ t, f[i]? = some t ∧ e.toTerm? σ = some t) ∧ ∀ t ∈ f, ∃ e ∈ sys, e.toTerm? σ = some t := by
  intro sys
  induction sys with
  | nil => intro f h; cases h; simp
  | cons e sys ih =>
    intro f h
    rw [List.mapM_cons] at h
    simp only [Option.bind_eq_bind, Option.bind_eq_some_iff, Option.pure_def, Option.some.injEq] at h
    obtain ⟨t, k1, f', k2, rfl⟩ := h
    obtain ⟨i1, i2, i3⟩ := ih _ k2
    refine ⟨by simp [i1], fun i e' he => ?_, fun t' ht' => ?_⟩
    · cases i with
      | zero => simp at he; subst he; exact ⟨t, rfl, k1⟩
      | succ i => exact i2 i e' (by simpa using he)
    · rcases List.mem_cons.1 ht' with rfl | ht'
      · exact ⟨e, by simp, k1⟩
      · obtain ⟨e', h1, h2⟩ := i3 t' ht'
        exact ⟨e', by simp [h1], h2⟩

/-- The term built from an expression mentions only the state variables of the expression and the variables of what is put for the inputs. -/
theorem AExpr.toTerm?_below {n : ℕ} {σ : ℕ → Option Term} (hσ : ∀ i s, σ i = some s → termBelow n s) :
    ∀ {e : AExpr} {t : Term}, (∀ j ∈ e.xs, j < n) → e.toTerm? σ = some t → termBelow n t := by
  intro e
  induction e with
  | num q => intro t hx h; simp [AExpr.toTerm?] at h; subst h; trivial
  | x i => intro t hx h; simp [AExpr.toTerm?] at h; subst h; exact hx i (by simp [AExpr.xs])
  | u i => intro t hx h; exact hσ i t h
  | add a b iha ihb | sub a b iha ihb | mul a b iha ihb | div a b iha ihb =>
    intro t hx h
    simp only [AExpr.toTerm?, Option.bind_eq_bind, Option.bind_eq_some_iff, Option.pure_def, Option.some.injEq] at h
    obtain ⟨ta, h1, tb, h2, rfl⟩ := h
    exact ⟨iha (fun j hj => hx j (by simp [AExpr.xs, hj])) h1, ihb (fun j hj => hx j (by simp [AExpr.xs, hj])) h2⟩
  | pow a b iha ihb =>
    intro t hx h
    cases b with
    | num q =>
      simp only [AExpr.toTerm?] at h
      split_ifs at h
      simp only [Option.bind_eq_bind, Option.bind_eq_some_iff, Option.pure_def, Option.some.injEq] at h
      obtain ⟨ta, h1, rfl⟩ := h
      exact (iha (fun j hj => hx j (by simp [AExpr.xs, hj])) h1 : termBelow n ta)
    | _ => simp [AExpr.toTerm?] at h
  | neg a iha =>
    intro t hx h
    simp only [AExpr.toTerm?, Option.bind_eq_bind, Option.bind_eq_some_iff, Option.pure_def, Option.some.injEq] at h
    obtain ⟨ta, h1, rfl⟩ := h
    exact (iha (fun j hj => hx j (by simp [AExpr.xs, hj])) h1 : termBelow n ta)
  | app f a iha =>
    intro t hx h
    simp only [AExpr.toTerm?, Option.bind_eq_bind, Option.bind_eq_some_iff, Option.pure_def, Option.some.injEq] at h
    obtain ⟨g, -, ta, h1, rfl⟩ := h
    exact (iha (fun j hj => hx j (by simp [AExpr.xs, hj])) h1 : termBelow n ta)

/-- The symbolic dynamics are the vector field described by the texts, and mention only state variables. -/
theorem config_field {lib : Lib} {n : ℕ} {texts : List String} {f : List Term} (h : readSystem lib n texts = .ok f) {F : Pt n → Pt n}
    (hF : SystemText lib.funcs n texts F) : field n f = F ∧ f.length = n ∧ AllBelow n f := by
  obtain ⟨num, -, h⟩ := except_bind_ok h
  obtain ⟨_, -, h⟩ := except_bind_ok h
  obtain ⟨sys, h1, h⟩ := except_bind_ok h
  by_cases hu : sys.flatMap AExpr.us ≠ []
  · rw [if_pos hu] at h; cases h
  rw [if_neg hu] at h
  obtain ⟨sys', h2, h3⟩ := except_bind_ok h
  have : sys' = sys := by
    unfold parsedSmt at h2
    split_ifs at h2
    cases h2
    rfl
  subst this
  obtain ⟨m1, m2⟩ := mapM_parse _ _ h1
  cases hf : sys'.mapM (AExpr.toTerm? (fun _ => none)) with
  | none => rw [hf] at h3; cases h3
  | some f' =>
    rw [hf] at h3
    cases h3
    obtain ⟨o1, o2, o3⟩ := mapM_term _ _ hf
    have key : ∀ i (hi : i < n), ∃ v ts e, sys'[i]? = some v ∧ Denotes true lib.funcs .sum ts e ∧ (∀ ρ μ, v.eval ρ μ = e.eval ρ μ) ∧ v.xs = e.xs ∧
        (∀ j ∈ e.xs, j < n) ∧ ∀ p : Pt n, F p ⟨i, hi⟩ = e.eval p.env (fun _ => 0) := by
      intro i hi
      have hi' : i < texts.length := by rw [hF.1]; exact hi
      obtain ⟨v, k1, k2⟩ := m2 i hi'
      obtain ⟨ts, e, hd, hmp, hsp, -, hx, he⟩ := hF.2 i hi
      rw [List.getD_eq_getElem?_getD, List.getElem?_eq_getElem hi', Option.getD_some] at hsp
      obtain ⟨hev, hxs, -⟩ := accepted_denotes hsp hd hmp k2
      exact ⟨v, ts, e, k1, hd, hev, hxs, hx, he⟩
    refine ⟨?_, by rw [o1, m1, hF.1], fun t ht => ?_⟩
    · funext p i
      obtain ⟨v, ts, e, k1, -, hev, -, -, he⟩ := key i i.2
      obtain ⟨t, k3, k4⟩ := o2 i v k1
      have e1 : F p i = e.eval p.env (fun _ => 0) := he p
      rw [e1, ← hev, field, List.getD_eq_getElem?_getD, k3]
      exact AExpr.toTerm?_eval (fun _ _ _ hs => by cases hs) k4
    · obtain ⟨v, hv, hvt⟩ := o3 t ht
      obtain ⟨i, hi, rfl⟩ := List.getElem_of_mem hv
      obtain ⟨v, ts, e, k1, -, -, hxs, hx, -⟩ := key i (by rw [← hF.1, ← m1]; exact hi)
      rw [List.getElem?_eq_getElem hi, Option.some.injEq] at k1
      exact AExpr.toTerm?_below (fun _ _ hs => by cases hs) (by rw [k1, hxs]; exact hx) hvt

theorem setText_bounded {n : ℕ} {s : String} {S : Set (Pt n)} (h : SetText n s S) : Bornology.IsBounded S := by
  have ball : ∀ (c : List ℚ) (r : ℝ), Bornology.IsBounded {p : Pt n | distSq c p ≤ r ^ 2} := by
    intro c r
    refine (Metric.isBounded_Icc (fun i : Fin n => entry c i - |r|) (fun i : Fin n => entry c i + |r|)).subset fun p hp => ?_
    have key : ∀ i, |p i - entry c i| ≤ |r| := by
      intro i
      have h1 : (p i - entry c i) ^ 2 ≤ r ^ 2 :=
        (Finset.single_le_sum (f := fun i : Fin n => (p i - entry c i) ^ 2) (fun _ _ => sq_nonneg _) (Finset.mem_univ i)).trans hp
      exact sq_le_sq.1 h1
    refine ⟨fun i => ?_, fun i => ?_⟩
    · have := (abs_le.1 (key i)).1
      change entry c i - |r| ≤ p i
      linarith
    · have := (abs_le.1 (key i)).2
      change p i ≤ entry c i + |r|
      linarith
  cases h with
  | @rectangle lb ub l u s hl hu e1 e2 hs =>
    exact (Metric.isBounded_Icc (fun i : Fin n => entry l i) (fun i : Fin n => entry u i)).subset fun p hp => ⟨fun i => (hp i).1, fun i => (hp i).2⟩
  | sphere hc hr e1 h0 hs => exact ball _ _
  | torus hc ho hi e1 h0 hlt hs => exact (ball _ _).subset fun p hp => hp.2

/-- The sets of a reach problem read from a configuration file satisfy what the reach theorems need. -/
theorem config_reachSets (c : ConfigText) (hd : DomainsDescribed c) (cfg : SynthCfg) (data) (h : readSets c = .ok (cfg, data)) (ht : TakesSafeSet c.cert)
    (I S D : Set (Pt c.nVars)) (hI : Configures c.nVars c.domains "XI" I) (hS : Configures c.nVars c.domains "XS" S)
    (hD : Configures c.nVars c.domains "XD" D) (h1 : I ⊆ S) (h2 : I ⊆ D) (h3 : frontier S ⊆ D) : ReachSets c.nVars cfg.domains := by
  have hroa : c.cert ≠ .ROA := by rintro e; rw [e] at ht; rcases ht with h | h | h | h | h <;> cases h
  have rI : region c.nVars cfg.domains XI = I := config_region hd h .XI (by decide) (by decide) (by intro h; cases h) hI
  have rS : region c.nVars cfg.domains XS = S := config_region hd h .XS (by decide) (by decide) (by intro h; cases h) hS
  have rD : region c.nVars cfg.domains XD = D := config_region hd h .XD (by decide) (by decide) (fun _ => hroa) hD
  obtain ⟨Ds, d, k2, k3, -⟩ := readSets_inv h
  have hn : (Ds.map Prod.fst).Nodup := by rw [(readDomainTexts_get k2).1]; exact hd.keys
  obtain ⟨g1, g2, g3⟩ := parseConfig_get hn k3
  have hb : Dict.get? cfg.domains XSB = Dict.get? Ds "XS" := g2 ht
  have hx : Dict.get? cfg.domains XS = Dict.get? Ds "XS" := g1 .XS (by decide) (by decide) (by intro h; cases h)
  refine ⟨by rw [rI, rS]; exact h1, by rw [rI, rD]; exact h2, by rw [rS, rD]; exact h3, by rw [region, region, hb, hx], ?_⟩
  intro P hP
  rw [hb] at hP
  exact (config_wf hd k2 _ (Dict.get?_eq_some_mem hP)).2

/-! ### the guarantees of a run in terms of the texts, for dynamics of any origin -/

/-- The file is accepted, and every text under `DOMAINS` describes a set. -/
structure SetsRun (c : ConfigText) (cfg : SynthCfg) : Prop where
  lib : c.lib = .z3 ∨ c.lib = .dreal
  domains : DomainsDescribed c
  accepted : ∃ data, readSets c = .ok (cfg, data)

theorem SetsRun.cfg {c : ConfigText} {cfg : SynthCfg} (h : SetsRun c cfg) :
    ∃ doms, cfg = ⟨c.lib, c.nVars, c.cert, doms, c.llo, c.rounding, c.quad, c.maxIters⟩ := by
  obtain ⟨data, h⟩ := h.accepted
  obtain ⟨D, d, -, -, -, e⟩ := readSets_inv h
  exact ⟨_, e⟩

theorem SetsRun.wf {c : ConfigText} {cfg : SynthCfg} (h : SetsRun c cfg) : WFDomains c.nVars cfg.domains := by
  obtain ⟨data, h'⟩ := h.accepted
  obtain ⟨D, d, h2, h3, -, e⟩ := readSets_inv h'
  exact parseConfig_wf (fun e he => (config_wf h.domains h2 e he).1) h3

theorem SetsRun.region {c : ConfigText} {cfg : SynthCfg} (h : SetsRun c cfg) (x : DName) (hx : x ≠ .XS_BORDER) (hx' : x ≠ .XG_BORDER)
    (hroa : x = .XD → c.cert ≠ .ROA) {S : Set (Pt c.nVars)} (hS : Configures c.nVars c.domains x.name S) : Spec.region c.nVars cfg.domains x.value = S := by
  obtain ⟨data, h'⟩ := h.accepted
  exact config_region h.domains h' x hx hx' hroa hS

/-- If all sets described in the file are inside `(-1000, 1000)ⁿ`, the loop works with small sets. -/
theorem SetsRun.small {c : ConfigText} {cfg : SynthCfg} (h : SetsRun c cfg)
    (hsm : ∀ k S, Configures c.nVars c.domains k S → ∀ p ∈ S, ∀ i, -1000 < p i ∧ p i < 1000) : SmallSets c.nVars cfg.domains := by
  obtain ⟨data, h'⟩ := h.accepted
  obtain ⟨D, d, h2, h3, -, e⟩ := readSets_inv h'
  have H := parseConfig_all (Q := fun P => (∀ p ∈ docSet c.nVars P, ∀ i, -1000 < p i ∧ p i < 1000) ∧ ClosedShape P) (D := D) ?_ h3
  · exact fun e he => ⟨(H e he).1, fun _ => (H e he).2⟩
  rintro ⟨k, P⟩ he
  obtain ⟨s, h4, h5⟩ := (readDomainTexts_get h2).2.2 k P he
  obtain ⟨T, hT⟩ := h.domains.texts k s h4
  obtain ⟨P', h6, -, -, h7⟩ := setText_parse hT
  rw [h5] at h6
  cases h6
  refine ⟨by rw [h7]; exact hsm k T ⟨s, h4, hT⟩, ?_⟩
  cases hT with
  | rectangle hl hu e1 e2 hs => rw [C55_rectangle_text _ _ _ _ hl hu _ hs] at h5; cases h5; trivial
  | sphere hc hr e1 h0 hs => rw [C55_sphere_text _ _ _ _ hc hr _ hs] at h5; cases h5; trivial
  | torus hc ho hi e1 h0 hlt hs => rw [C55_torus_text _ _ _ _ _ _ hc ho hi _ hs, if_pos hlt] at h5; cases h5; exact Or.inl rfl

variable {R K : Type}

theorem core_safety {c : ConfigText} {cfg : SynthCfg} (hs : SetsRun c cfg) (w : World R K (Net × ℚ)) (hw : SoundWorld cfg w) (learn)
    (harch : ∀ st n k, learn st = .ok (n, k) → n.1.inputSize = c.nVars ∧ smoothActs n.1) (hc : c.cert = .BARRIER ∨ c.cert = .BARRIERALT)
    (I D U : Set (Pt c.nVars)) (hI : Configures c.nVars c.domains "XI" I) (hD : Configures c.nVars c.domains "XD" D)
    (hU : Configures c.nVars c.domains "XU" U) (net ctrl S out) (h : Solves cfg.loop (singleComponents w cfg false learn) net ctrl S out)
    (hf : out.found = true) (T : ℝ) (ξ : ℝ → Pt c.nVars) (hξ : Trajectory (field c.nVars (w.dynamics out.ctrl)) T ξ) (h0 : ξ 0 ∈ I)
    (hin : ∀ t ∈ Icc 0 T, ξ t ∈ D) : ∀ t ∈ Icc 0 T, ξ t ∉ U := by
  have rI := hs.region .XI (by decide) (by decide) (by intro h; cases h) hI
  have rD := hs.region .XD (by decide) (by decide) (by rintro -; rcases hc with h | h <;> simp [h]) hD
  have rU := hs.region .XU (by decide) (by decide) (by intro h; cases h) hU
  have hwf := hs.wf
  obtain ⟨doms, rfl⟩ := hs.cfg
  subst rI rD rU
  exact C46_barrier_synthesis_safe _ w hw learn ⟨hs.lib, hwf, harch⟩ hc net ctrl S out h hf T ξ hξ h0 hin

theorem core_safety_dt {c : ConfigText} {cfg : SynthCfg} (hs : SetsRun c cfg) (w : World R K (Net × ℚ)) (hw : SoundWorld cfg w) (learn)
    (harch : ∀ st n k, learn st = .ok (n, k) → n.1.inputSize = c.nVars ∧ smoothActs n.1) (hc : c.cert = .BARRIERALT) (hq : c.quad = false)
    (I D U : Set (Pt c.nVars)) (hI : Configures c.nVars c.domains "XI" I) (hD : Configures c.nVars c.domains "XD" D)
    (hU : Configures c.nVars c.domains "XU" U) (net ctrl S out) (h : Solves cfg.loop (singleComponents w cfg true learn) net ctrl S out)
    (hf : out.found = true) (hlen : (w.dynamics out.ctrl).length = c.nVars)
    (x : ℕ → Pt c.nVars) (hx : IsRun (field c.nVars (w.dynamics out.ctrl)) x) (h0 : x 0 ∈ I)
    (k : ℕ) (hin : ∀ j ≤ k, x j ∈ D) : x k ∉ U := by
  have rI := hs.region .XI (by decide) (by decide) (by intro h; cases h) hI
  have rD := hs.region .XD (by decide) (by decide) (by rintro -; simp [hc]) hD
  have rU := hs.region .XU (by decide) (by decide) (by intro h; cases h) hU
  have hwf := hs.wf
  obtain ⟨doms, rfl⟩ := hs.cfg
  subst rI rD rU
  exact C46_discrete_barrier_synthesis_safe _ w hw learn ⟨hs.lib, hwf, harch⟩ hc hq net ctrl S out h hf hlen x hx h0 k hin

theorem core_stability {c : ConfigText} {cfg : SynthCfg} (hs : SetsRun c cfg) (w : World R K (Net × ℚ)) (hw : SoundWorld cfg w) (learn)
    (harch : ∀ st n k, learn st = .ok (n, k) → n.1.inputSize = c.nVars ∧ smoothActs n.1) (hc : c.cert = .LYAPUNOV)
    (D : Set (Pt c.nVars)) (hD : Configures c.nVars c.domains "XD" D) (hn : D ∈ 𝓝 0) (net ctrl S out)
    (h : Solves cfg.loop (singleComponents w cfg false learn) net ctrl S out) (hf : out.found = true)
    (hF : Continuous (field c.nVars (w.dynamics out.ctrl))) (hpd : c.llo = false ∨ PDNet out.net.1)
    (hz : c.quad = true ∨ ZeroNet out.net.1) : AsympStable (field c.nVars (w.dynamics out.ctrl)) := by
  have rD := hs.region .XD (by decide) (by decide) (by rintro -; simp [hc]) hD
  have hwf := hs.wf
  obtain ⟨doms, rfl⟩ := hs.cfg
  subst rD
  exact C47_synthesis_stable_partial _ w hw learn ⟨hs.lib, hwf, harch⟩ hc net ctrl S out h hf hpd hz hn hF

theorem core_reach {c : ConfigText} {cfg : SynthCfg} (hs : SetsRun c cfg) (w : World R K (Net × ℚ)) (hw : SoundWorld cfg w) (learn)
    (harch : ∀ st n k, learn st = .ok (n, k) → n.1.inputSize = c.nVars ∧ smoothActs n.1)
    (hc : c.cert = .RWS ∨ c.cert = .RWA ∨ c.cert = .RSWS ∨ c.cert = .RSWA) (I S D G : Set (Pt c.nVars))
    (hI : Configures c.nVars c.domains "XI" I) (hS : Configures c.nVars c.domains "XS" S) (hD : Configures c.nVars c.domains "XD" D)
    (hG : Configures c.nVars c.domains "XG" G) (h1 : I ⊆ S) (h2 : I ⊆ D) (h3 : frontier S ⊆ D) (net ctrl Sd out)
    (h : Solves cfg.loop (singleComponents w cfg false learn) net ctrl Sd out) (hf : out.found = true) :
    ∃ τ : ℝ, ∀ (T : ℝ) (ξ : ℝ → Pt c.nVars), Trajectory (field c.nVars (w.dynamics out.ctrl)) T ξ → τ ≤ T → ξ 0 ∈ I →
      (∃ t ∈ Icc 0 τ, ξ t ∈ G) ∧ ∀ t ∈ Icc 0 T, ξ t ∈ S ∨ ∃ r ∈ Icc 0 t, ξ r ∈ G := by
  have ht : TakesSafeSet c.cert := by rcases hc with h | h | h | h <;> simp [TakesSafeSet, h]
  have rI := hs.region .XI (by decide) (by decide) (by intro h; cases h) hI
  have rS := hs.region .XS (by decide) (by decide) (by intro h; cases h) hS
  have rG := hs.region .XG (by decide) (by decide) (by intro h; cases h) hG
  obtain ⟨data, hacc⟩ := hs.accepted
  have hsets := config_reachSets c hs.domains cfg data hacc ht I S D hI hS hD h1 h2 h3
  have hbd : Bornology.IsBounded S := by obtain ⟨s, -, h⟩ := hS; exact setText_bounded h
  have hwf := hs.wf
  obtain ⟨doms, rfl⟩ := hs.cfg
  subst rI rS rG
  exact C46_reach_synthesis _ w hw learn ⟨hs.lib, hwf, harch⟩ hc hsets hbd net ctrl Sd out h hf

/-- The sets of a reach-and-stay configuration. -/
theorem config_staySets {c : ConfigText} {cfg : SynthCfg} (hs : SetsRun c cfg) (hc : c.cert = .RSWS) (I S D G : Set (Pt c.nVars))
    (hI : Configures c.nVars c.domains "XI" I) (hS : Configures c.nVars c.domains "XS" S) (hD : Configures c.nVars c.domains "XD" D)
    (hG : Configures c.nVars c.domains "XG" G) (h1 : I ⊆ S) (h2 : I ⊆ D) (h3 : frontier S ⊆ D) (h4 : G ⊆ S) :
    StaySets c.nVars cfg.domains := by
  have ht : TakesSafeSet c.cert := by simp [TakesSafeSet, hc]
  have rS := hs.region .XS (by decide) (by decide) (by intro h; cases h) hS
  have rG := hs.region .XG (by decide) (by decide) (by intro h; cases h) hG
  obtain ⟨data, hacc⟩ := hs.accepted
  refine ⟨config_reachSets c hs.domains cfg data hacc ht I S D hI hS hD h1 h2 h3, ?_, ?_, ?_⟩
  · change Spec.region c.nVars cfg.domains DName.XG.value ⊆ Spec.region c.nVars cfg.domains DName.XS.value
    rw [rS, rG]; exact h4
  all_goals
    obtain ⟨Ds, d, k2, k3, -⟩ := readSets_inv hacc
    have hn : (Ds.map Prod.fst).Nodup := by rw [(readDomainTexts_get k2).1]; exact hs.domains.keys
    obtain ⟨g1, g2, g3⟩ := parseConfig_get hn k3
    have hb : Dict.get? cfg.domains XGB = Dict.get? Ds "XG" := g3 (Or.inl hc)
    have hx : Dict.get? cfg.domains XG = Dict.get? Ds "XG" := g1 .XG (by decide) (by decide) (by intro h; cases h)
  · rw [Spec.region, Spec.region, hb, hx]
  · intro P hP
    rw [hb] at hP
    exact (config_wf hs.domains k2 _ (Dict.get?_eq_some_mem hP)).2

theorem core_reach_stay {c : ConfigText} {cfg : SynthCfg} (hs : SetsRun c cfg) (w : World R K (Net × ℚ)) (hw : SoundWorld cfg w) (learn)
    (harch : ∀ st n k, learn st = .ok (n, k) → n.1.inputSize = c.nVars ∧ smoothActs n.1)
    (hc : c.cert = .RSWS) (I S D G : Set (Pt c.nVars))
    (hI : Configures c.nVars c.domains "XI" I) (hS : Configures c.nVars c.domains "XS" S) (hD : Configures c.nVars c.domains "XD" D)
    (hG : Configures c.nVars c.domains "XG" G) (h1 : I ⊆ S) (h2 : I ⊆ D) (h3 : frontier S ⊆ D) (h4 : G ⊆ S) (net ctrl Sd out)
    (h : Solves cfg.loop (singleComponents w cfg false learn) net ctrl Sd out) (hf : out.found = true) :
    ∃ τ : ℝ, ∀ (T : ℝ) (ξ : ℝ → Pt c.nVars), Trajectory (field c.nVars (w.dynamics out.ctrl)) T ξ → τ ≤ T → ξ 0 ∈ I →
      (∃ t₁ ∈ Icc 0 τ, ∀ t ∈ Icc t₁ T, ξ t ∈ G) ∧ ∀ t ∈ Icc 0 T, ξ t ∈ S := by
  have rI := hs.region .XI (by decide) (by decide) (by intro h; cases h) hI
  have rS := hs.region .XS (by decide) (by decide) (by intro h; cases h) hS
  have rG := hs.region .XG (by decide) (by decide) (by intro h; cases h) hG
  have hsets := config_staySets hs hc I S D G hI hS hD hG h1 h2 h3 h4
  have hbd : Bornology.IsBounded S := by obtain ⟨s, -, h⟩ := hS; exact setText_bounded h
  have hwf := hs.wf
  obtain ⟨doms, rfl⟩ := hs.cfg
  subst rI rS rG
  exact C46_reach_stay_synthesis _ w hw learn ⟨hs.lib, hwf, harch⟩ hc hsets hbd net ctrl Sd out h hf

theorem core_roa {c : ConfigText} {cfg : SynthCfg} (hs : SetsRun c cfg) (w : World R K (Net × ℚ)) (hw : SoundWorld cfg w) (learn)
    (harch : ∀ st n k, learn st = .ok (n, k) → n.1.inputSize = c.nVars ∧ smoothActs n.1)
    (hc : c.cert = .ROA) (I : Set (Pt c.nVars)) (hI : Configures c.nVars c.domains "XI" I) (net ctrl S out)
    (h : Solves cfg.loop (singleComponents w cfg false learn) net ctrl S out) (hf : out.found = true) :
    (∀ p ∈ I, certValue c.rounding c.quad out.net.1 p ≤ (out.net.2 : ℝ) * (11/10)) ∧
    ∀ (T : ℝ) (ξ : ℝ → Pt c.nVars), Trajectory (field c.nVars (w.dynamics out.ctrl)) T ξ → 0 ≤ T → ξ 0 ∈ I →
      (∀ t ∈ Icc 0 T, (1/100)^2 < normSq (ξ t)) →
      ((c.llo = true ∨ certValue c.rounding c.quad out.net.1 (ξ 0) < (out.net.2 : ℝ) * (11/10)) →
        ∀ t ∈ Icc 0 T, certValue c.rounding c.quad out.net.1 (ξ t) ≤ (out.net.2 : ℝ) * (11/10)) ∧
      (c.llo = true → StrictAntiOn (fun t => certValue c.rounding c.quad out.net.1 (ξ t)) (Icc 0 T)) := by
  have rI := hs.region .XI (by decide) (by decide) (by intro h; cases h) hI
  have hwf := hs.wf
  obtain ⟨doms, rfl⟩ := hs.cfg
  subst rI
  exact C46_roa_synthesis _ w hw learn ⟨hs.lib, hwf, harch⟩ hc net ctrl S out h hf

theorem core_stable_safe {c : ConfigText} {cfg : SynthCfg} (hs : SetsRun c cfg) (w : World R K ((Net × ℚ) × Net)) (hw : SoundWorld cfg w) (learn)
    (harch : ∀ st n k, learn st = .ok (n, k) → (n.1.1.inputSize = c.nVars ∧ smoothActs n.1.1) ∧ (n.2.inputSize = c.nVars ∧ smoothActs n.2))
    (hc : c.cert = .STABLESAFE) (I D U : Set (Pt c.nVars)) (hI : Configures c.nVars c.domains "XI" I) (hD : Configures c.nVars c.domains "XD" D)
    (hU : Configures c.nVars c.domains "XU" U) (net ctrl S out) (h : Solves cfg.loop (doubleComponents w cfg learn) net ctrl S out)
    (hf : out.found = true) (T : ℝ) (ξ : ℝ → Pt c.nVars) (hξ : Trajectory (field c.nVars (w.dynamics out.ctrl)) T ξ) (h0 : ξ 0 ∈ I)
    (hin : ∀ t ∈ Icc 0 T, ξ t ∈ D) : ∀ t ∈ Icc 0 T, ξ t ∉ U := by
  have rI := hs.region .XI (by decide) (by decide) (by intro h; cases h) hI
  have rD := hs.region .XD (by decide) (by decide) (by rintro -; simp [hc]) hD
  have rU := hs.region .XU (by decide) (by decide) (by intro h; cases h) hU
  have hwf := hs.wf
  obtain ⟨doms, rfl⟩ := hs.cfg
  subst rI rD rU
  exact C46_stable_safe_synthesis _ w hw learn ⟨hs.lib, hwf, harch⟩ hc net ctrl S out h hf T ξ hξ h0 hin

theorem core_rar {c : ConfigText} {cfg : SynthCfg} (hs : SetsRun c cfg) (w : World R K ((Net × ℚ) × Net)) (hw : SoundWorld cfg w) (learn)
    (harch : ∀ st n k, learn st = .ok (n, k) → (n.1.1.inputSize = c.nVars ∧ smoothActs n.1.1) ∧ (n.2.inputSize = c.nVars ∧ smoothActs n.2))
    (hc : c.cert = .RAR) (I S D G P : Set (Pt c.nVars))
    (hI : Configures c.nVars c.domains "XI" I) (hS : Configures c.nVars c.domains "XS" S) (hD : Configures c.nVars c.domains "XD" D)
    (hG : Configures c.nVars c.domains "XG" G) (hP : Configures c.nVars c.domains "XF" P) (h1 : I ⊆ S) (h2 : I ⊆ D) (h3 : frontier S ⊆ D)
    (net ctrl Sd out) (h : Solves cfg.loop (doubleComponents w cfg learn) net ctrl Sd out) (hf : out.found = true) :
    ∃ τ : ℝ, ∀ (T : ℝ) (ξ : ℝ → Pt c.nVars), Trajectory (field c.nVars (w.dynamics out.ctrl)) T ξ → τ ≤ T → ξ 0 ∈ I →
      (∀ t ∈ Icc 0 T, ξ t ∈ D) → (∃ t ∈ Icc 0 τ, ξ t ∈ G) ∧ (∀ t ∈ Icc 0 T, ξ t ∈ S ∨ ∃ r ∈ Icc 0 t, ξ r ∈ G) ∧
      ∀ r ∈ Icc 0 T, ξ r ∈ G → ∀ t ∈ Icc r T, ξ t ∈ P := by
  have ht : TakesSafeSet c.cert := by simp [TakesSafeSet, hc]
  have rI := hs.region .XI (by decide) (by decide) (by intro h; cases h) hI
  have rS := hs.region .XS (by decide) (by decide) (by intro h; cases h) hS
  have rD := hs.region .XD (by decide) (by decide) (by rintro -; simp [hc]) hD
  have rG := hs.region .XG (by decide) (by decide) (by intro h; cases h) hG
  have rP := hs.region .XF (by decide) (by decide) (by intro h; cases h) hP
  obtain ⟨data, hacc⟩ := hs.accepted
  have hsets := config_reachSets c hs.domains cfg data hacc ht I S D hI hS hD h1 h2 h3
  have hbd : Bornology.IsBounded S := by obtain ⟨s, -, h⟩ := hS; exact setText_bounded h
  have hwf := hs.wf
  obtain ⟨doms, rfl⟩ := hs.cfg
  subst rI rS rD rG rP
  exact C46_rar_synthesis _ w hw learn ⟨hs.lib, hwf, harch⟩ hc hsets hbd net ctrl Sd out h hf

end Fossil
