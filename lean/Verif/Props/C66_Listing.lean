/-
C66: the sets `fossil --certificate NAME` lists are the sets a configuration must give.
-/
import Verif.Props.C34_Cli

namespace Fossil
open Spec

namespace Spec

/-- The names in a YAML mapping. -/
def Named {α : Type} (l : List (String × α)) (d : DName) : Prop := d.name ∈ l.map Prod.fst

/-- A configuration follows the listing (`symb`, `data`) printed for its certificate:
every listed symbolic domain that is not a border is given in DOMAINS, and nothing that is not listed (the complement of the final set,
listed as data only, may be given too); every listed data domain has a count in N_DATA; and names with a count that are not listed are not
borders and have no set in DOMAINS. -/
structure FollowsListing {α β : Type} (ct : CertType) (symb data : List DName) (domains : List (String × α)) (counts : List (String × β)) : Prop where
  knownSets : ∀ k ∈ domains.map Prod.fst, ∃ d : DName, k = d.name
  knownData : ∀ k ∈ counts.map Prod.fst, ∃ d : DName, k = d.name
  setsGiven : ∀ d ∈ symb, d ≠ .XS_BORDER → d ≠ .XG_BORDER → Named domains d
  setsListed : ∀ d, Named domains d → d ∈ symb ∨ (ct = .RAR ∧ d = .XNF)
  dataGiven : ∀ d ∈ data, Named counts d
  dataListed : ∀ d, Named counts d → d ∈ data ∨ (d ≠ .XS_BORDER ∧ d ≠ .XG_BORDER ∧ ¬ Named domains d)

end Spec

theorem DName.name_injective : Function.Injective DName.name := by
  intro a b h; cases a <;> cases b <;> first | rfl | (exact absurd h (by decide))

theorem readDomains_keys {l : List (String × PySet)} : ∀ {acc U : Dict String PySet}, readDomains l acc = .ok U →
    (∀ k ∈ l.map Prod.fst, ∃ d : DName, k = d.name) ∧ ∀ x, x ∈ U.keys ↔ x ∈ acc.keys ∨ ∃ d : DName, x = d.value ∧ Named l d := by
  induction l with
  | nil => intro acc U h; cases h; exact ⟨(fun k hk => by cases hk), fun x => by simp [Named]⟩
  | cons e l ih =>
    obtain ⟨k, S⟩ := e
    intro acc U h
    obtain ⟨d, h1, h2⟩ := except_bind_ok h
    have hk := DName.ofName_ok.1 h1
    obtain ⟨h3, h4⟩ := ih h2
    refine ⟨fun k' hk' => ?_, fun x => ?_⟩
    · rcases List.mem_cons.1 hk' with rfl | hk'
      · exact ⟨d, hk⟩
      · exact h3 k' hk'
    · rw [h4, Dict.mem_keys_set]
      constructor
      · rintro ((rfl | h) | ⟨d', rfl, h⟩)
        · exact Or.inr ⟨d, rfl, by simp [Named, hk]⟩
        · exact Or.inl h
        · exact Or.inr ⟨d', rfl, List.mem_cons_of_mem _ h⟩
      · rintro (h | ⟨d', rfl, h⟩)
        · exact Or.inl (Or.inr h)
        · rcases List.mem_cons.1 h with h | h
          · left; left
            have : d'.name = d.name := h.trans hk
            rw [DName.name_injective this]
          · exact Or.inr ⟨d', rfl, h⟩

theorem readDataDict_keys_iff {doms : Dict String PySet} {l : List (String × ℕ)} : ∀ {acc data : Dict String Src}, readDataDict doms l acc = .ok data →
    (∀ k ∈ l.map Prod.fst, ∃ d : DName, k = d.name ∧ (d ∈ DName.borderValues → d.value ∈ doms.keys)) ∧
    ∀ x, x ∈ data.keys ↔ x ∈ acc.keys ∨ ∃ d : DName, x = d.value ∧ Named l d ∧ d.value ∈ doms.keys := by
  induction l with
  | nil => intro acc U h; cases h; exact ⟨(fun k hk => by cases hk), fun x => by simp [Named]⟩
  | cons e l ih =>
    obtain ⟨k, N⟩ := e
    intro acc data h
    obtain ⟨d, h1, h2⟩ := except_bind_ok h
    have hk := DName.ofName_ok.1 h1
    have fin : ∀ {src : Src}, d.value ∈ doms.keys → readDataDict doms l (Dict.set acc d.value src) = .ok data →
        (∀ k' ∈ List.map Prod.fst ((k, N) :: l), ∃ d : DName, k' = d.name ∧ (d ∈ DName.borderValues → d.value ∈ doms.keys)) ∧
        ∀ x, x ∈ data.keys ↔ x ∈ acc.keys ∨ ∃ d : DName, x = d.value ∧ Named ((k, N) :: l) d ∧ d.value ∈ doms.keys := by
      intro src hd hr
      obtain ⟨h3, h4⟩ := ih hr
      refine ⟨fun k' hk' => ?_, fun x => ?_⟩
      · rcases List.mem_cons.1 hk' with rfl | hk'
        · exact ⟨d, hk, fun _ => hd⟩
        · exact h3 k' hk'
      · rw [h4, Dict.mem_keys_set]
        constructor
        · rintro ((rfl | h) | ⟨d', rfl, h, h'⟩)
          · exact Or.inr ⟨d, rfl, by simp [Named, hk], hd⟩
          · exact Or.inl h
          · exact Or.inr ⟨d', rfl, List.mem_cons_of_mem _ h, h'⟩
        · rintro (h | ⟨d', rfl, h, h'⟩)
          · exact Or.inl (Or.inr h)
          · rcases List.mem_cons.1 h with h | h
            · left; left
              have : d'.name = d.name := h.trans hk
              rw [DName.name_injective this]
            · exact Or.inr ⟨d', rfl, h, h'⟩
    by_cases hb : d ∈ DName.borderValues
    · rw [if_pos hb] at h2
      obtain ⟨S, hS, h2⟩ := except_bind_ok h2
      exact fin (Dict.get?_isSome_iff.1 (by rw [get_ok.1 hS]; rfl)) h2
    · rw [if_neg hb] at h2
      cases hS : Dict.get? doms d.value with
      | some S =>
        rw [hS] at h2
        exact fin (Dict.get?_isSome_iff.1 (by rw [hS]; rfl)) h2
      | none =>
        rw [hS] at h2
        obtain ⟨h3, h4⟩ := ih h2
        have hn : d.value ∉ doms.keys := fun hx => by rw [← Dict.get?_isSome_iff, hS] at hx; cases hx
        refine ⟨fun k' hk' => ?_, fun x => ?_⟩
        · rcases List.mem_cons.1 hk' with rfl | hk'
          · exact ⟨d, hk, fun h => absurd h hb⟩
          · exact h3 k' hk'
        · rw [h4]
          constructor
          · rintro (h | ⟨d', rfl, h, h'⟩)
            · exact Or.inl h
            · exact Or.inr ⟨d', rfl, List.mem_cons_of_mem _ h, h'⟩
          · rintro (h | ⟨d', rfl, h, h'⟩)
            · exact Or.inl h
            · rcases List.mem_cons.1 h with h | h
              · have : d'.name = d.name := h.trans hk
                rw [DName.name_injective this] at h'
                exact absurd h' hn
              · exact Or.inr ⟨d', rfl, h, h'⟩

theorem addBorders_keys {bs : List (DName × DName)} : ∀ {U doms : Dict String PySet}, addBorders bs U = .ok doms →
    ∀ x, x ∈ doms.keys ↔ x ∈ U.keys ∨ ∃ b ∈ bs, x = b.2.value := by
  induction bs with
  | nil => intro U doms h x; cases h; simp
  | cons b bs ih =>
    intro U doms h x
    obtain ⟨S, h1, h2⟩ := except_bind_ok h
    rw [ih h2 x, Dict.mem_keys_set]
    simp only [List.mem_cons, exists_eq_or_imp]
    tauto

/-- Labels of the sets after adding the borders, and of the data read. -/
theorem read_labels {ct : CertType} {domains : List (String × PySet)} {counts : List (String × ℕ)} {U doms : Dict String PySet}
    {raw : Dict String Src} (h1 : readDomains domains [] = .ok U) (h2 : addBorders ct.requiredBorders U = .ok doms)
    (h3 : readDataDict doms counts [] = .ok raw) :
    (∀ d : DName, d.value ∈ doms.keys ↔ Named domains d ∨ ∃ b ∈ ct.requiredBorders, d = b.2) ∧
    (∀ d : DName, d.value ∈ raw.keys ↔ Named counts d ∧ (Named domains d ∨ ∃ b ∈ ct.requiredBorders, d = b.2)) := by
  have hd : ∀ d : DName, d.value ∈ doms.keys ↔ Named domains d ∨ ∃ b ∈ ct.requiredBorders, d = b.2 := by
    intro d
    rw [addBorders_keys h2, (readDomains_keys h1).2]
    constructor
    · rintro ((h | ⟨e, h, h'⟩) | ⟨b, h, h'⟩)
      · cases h
      · rw [DName.value_injective h]; exact Or.inl h'
      · exact Or.inr ⟨b, h, DName.value_injective h'⟩
    · rintro (h | ⟨b, h, rfl⟩)
      · exact Or.inl (Or.inr ⟨d, rfl, h⟩)
      · exact Or.inr ⟨b, h, rfl⟩
  refine ⟨hd, fun d => ?_⟩
  rw [(readDataDict_keys_iff h3).2, ← hd d]
  constructor
  · rintro (h | ⟨e, h, h'⟩)
    · cases h
    · rw [DName.value_injective h]; exact h'
  · intro h; exact Or.inr ⟨d, rfl, h⟩

theorem count_named {counts : List (String × ℕ)} {d : DName} : (∃ N, (NData.dict counts).count d = .ok N) ↔ Named counts d := by
  show (∃ N, Dict.get counts d.name = .ok N) ↔ _
  simp only [get_ok]
  rw [← Option.isSome_iff_exists, Dict.get?_isSome_iff]
  rfl

/-- The required labels as names. -/
def needD : CertType → List DName
  | .LYAPUNOV => [.XD]
  | .ROA => [.XI]
  | .BARRIER | .BARRIERALT | .STABLESAFE => [.XD, .XI, .XU]
  | .RWS | .RWA => [.XD, .XI, .XS, .XS_BORDER, .XG]
  | .RSWS | .RSWA => [.XD, .XI, .XS, .XS_BORDER, .XG, .XG_BORDER]
  | .RAR => [.XD, .XI, .XS, .XS_BORDER, .XG, .XF, .XNF]
  | .CUSTOM => []

theorem requiredDomains_eq (ct : CertType) : requiredDomains ct = {x | ∃ e ∈ needD ct, x = e.value} := by
  ext x
  cases ct <;> simp [requiredDomains, needD, DName.value]

theorem requiredData_eq (ct : CertType) : requiredData ct = {x | ∃ e ∈ countedSets ct, x = e.value} := by
  ext x
  cases ct <;> simp [requiredData, countedSets, DName.value]

theorem mem_needD (ct : CertType) (e : DName) : e.value ∈ requiredDomains ct ↔ e ∈ needD ct := by
  rw [requiredDomains_eq]
  exact ⟨fun ⟨e', h, h'⟩ => DName.value_injective h' ▸ h, fun h => ⟨e, h, rfl⟩⟩

theorem mem_countedSets (ct : CertType) (e : DName) : e.value ∈ requiredData ct ↔ e ∈ countedSets ct := by
  rw [requiredData_eq]
  exact ⟨fun ⟨e', h, h'⟩ => DName.value_injective h' ▸ h, fun h => ⟨e, h, rfl⟩⟩

theorem requiredData_values (ct : CertType) : ∀ x ∈ requiredData ct, ∃ e : DName, x = e.value := by
  intro x hx; rw [requiredData_eq] at hx; obtain ⟨e, -, h⟩ := hx; exact ⟨e, h⟩

theorem requiredDomains_values (ct : CertType) : ∀ x ∈ requiredDomains ct, ∃ e : DName, x = e.value := by
  intro x hx; rw [requiredDomains_eq] at hx; obtain ⟨e, -, h⟩ := hx; exact ⟨e, h⟩

theorem value_XNF (e : DName) : e.value = XNF ↔ e = .XNF := ⟨fun h => DName.value_injective h, fun h => h ▸ rfl⟩
theorem value_XD (e : DName) : e.value = XD ↔ e = .XD := ⟨fun h => DName.value_injective h, fun h => h ▸ rfl⟩

set_option maxHeartbeats 2000000 in
/-- **C66.** Whatever configuration (with a mapping for N_DATA) the command line accepts, it gives the sets and counts listed for its
certificate type. -/
theorem C66_listed_needed (lib : Lib) (n : ℕ) (c : CheckCfg) (ct : CertType) (hct : ct ≠ .CUSTOM) (domains : List (String × PySet))
    (counts : List (String × ℕ)) (r : Dict String Src × Dict String Formula) (h : cliStart lib n c ct domains (some (.dict counts)) = .ok r) :
    ∃ symb data, ct.sets = .ok (symb, data) ∧ FollowsListing ct symb data domains counts := by
  obtain ⟨data, d⟩ := r
  obtain ⟨U, doms, nd', raw, doms', e, h1, h2, h3, h4, h5, h6⟩ := cliStart_inv h
  cases e
  dsimp only at h3
  obtain ⟨hdom, hraw⟩ := read_labels h1 h2 h3
  have hk1 := (readDomains_keys h1).1
  have hk2 := (readDataDict_keys_iff h3).1
  obtain ⟨hD, hE⟩ := (C42_assert_state_iff ct hct _ _).1.1 ((C42_cegis_state_iff _ _ _ _).1 h6).2.2.2
  have hD' : ∀ e : DName, (e.value ∈ doms'.keys ∨ (ct = .RAR ∧ e.value = XNF)) ↔ e.value ∈ requiredDomains ct := fun e => by
    rw [← hD, initialise_keys h5]
  have hbord : ∀ e : DName, Named counts e → e ∈ DName.borderValues → Named domains e ∨ ∃ b ∈ ct.requiredBorders, e = b.2 := by
    intro e h8 h9
    obtain ⟨e', h10, h11⟩ := hk2 _ h8
    rw [← DName.name_injective h10] at h11
    exact (hdom e).1 (h11 h9)
  suffices hs : ∃ symb dat, ct.sets = .ok (symb, dat) ∧ (∀ d ∈ symb, d ≠ .XS_BORDER → d ≠ .XG_BORDER → Named domains d) ∧
      (∀ d, Named domains d → d ∈ symb ∨ (ct = .RAR ∧ d = .XNF)) ∧ (∀ d ∈ dat, Named counts d) ∧
      (∀ d, Named counts d → d ∈ dat ∨ (d ≠ .XS_BORDER ∧ d ≠ .XG_BORDER ∧ ¬ Named domains d)) by
    obtain ⟨symb, dat, e, a, b, a', b'⟩ := hs
    exact ⟨symb, dat, e, hk1, fun k hk => (hk2 k hk).imp fun _ h => h.1, a, b, a', b'⟩
  have hE' : ∀ e : DName, e.value ∈ data.keys ↔ e.value ∈ requiredData ct := by
    rcases hE with hE | ⟨rfl, hE⟩
    · exact fun e => hE _
    · exact absurd ((hE XR).2 (by simp)) (C34_region_data_unavailable lib n c domains _ data d h)
  -- what the adjustment for the certificate type does to the labels
  have key : ∀ (extra : DName → Prop) (dropped : DName → Prop), (∀ e : DName, e.value ∈ data.keys ↔ extra e ∨ e.value ∈ raw.keys) →
      (∀ e : DName, e.value ∈ doms'.keys ↔ e.value ∈ doms.keys ∧ ¬ dropped e) →
      (∀ e : DName, (extra e ∨ (Named counts e ∧ (Named domains e ∨ ∃ b ∈ ct.requiredBorders, e = b.2))) ↔ e.value ∈ requiredData ct) ∧
      (∀ e : DName, (((Named domains e ∨ ∃ b ∈ ct.requiredBorders, e = b.2) ∧ ¬ dropped e) ∨ (ct = .RAR ∧ e.value = XNF)) ↔ e.value ∈ requiredDomains ct) := by
    intro extra dropped hx hy
    exact ⟨fun e => by rw [← hE', hx, hraw], fun e => by rw [← hD', hy, hdom]⟩
  cases ct
  case CUSTOM => exact absurd rfl hct
  case LYAPUNOV | BARRIER | BARRIERALT | STABLESAFE =>
    cases h4
    obtain ⟨hb, ha⟩ := key (fun _ => False) (fun _ => False) (fun e => by simp) (fun e => by simp)
    refine ⟨_, _, rfl, ?_, ?_, ?_, ?_⟩
    all_goals
      intro e
      have a := ha e
      have b := hb e
      have k := hbord e
      rw [mem_needD, value_XNF] at a
      rw [mem_countedSets] at b
      clear ha hb hbord hD hD' hE hE' hdom hraw key hk1 hk2
      cases e <;> simp [CertType.requiredBorders, needD, countedSets, DName.borderValues] at a b k ⊢ <;> tauto
  case ROA =>
    obtain ⟨D, hD1, h4⟩ := except_bind_ok h4
    cases h4
    have hn : doms.keys.Nodup := by cases h2; exact readDomains_nodup (by simp [Dict.keys]) h1
    obtain ⟨hb, ha⟩ := key (fun _ => False) (fun e => e = .XD) (fun e => by simp) (fun e => by
      rw [mem_keys_erase hn]
      exact and_congr_right fun _ => not_congr ⟨fun h => DName.value_injective h, fun h => by rw [h]; rfl⟩)
    have hXD : Named domains .XD := by
      have := (hdom .XD).1 (Dict.get?_isSome_iff.1 (by rw [show DName.XD.value = XD from rfl, get_ok.1 hD1]; rfl))
      simpa [CertType.requiredBorders] using this
    refine ⟨_, _, rfl, ?_, ?_, ?_, ?_⟩
    all_goals
      intro e
      have a := ha e
      have b := hb e
      have k := hbord e
      rw [mem_needD, value_XNF] at a
      rw [mem_countedSets] at b
      clear ha hb hbord hD hD' hE hE' hdom hraw key hk1 hk2
      cases e <;> simp [CertType.requiredBorders, needD, countedSets, DName.borderValues] at a b k ⊢ <;> tauto
  case RWS | RWA | RSWS | RSWA =>
    obtain ⟨data1, h8, h4⟩ := except_bind_ok h4
    cases h4
    obtain ⟨D, I, N, -, -, hN, rfl⟩ := addMinus_inv h8
    have hc := count_named.1 ⟨N, hN⟩
    obtain ⟨hb, ha⟩ := key (fun e => e = .XU) (fun _ => False) (fun e => by
      rw [Dict.mem_keys_set]; exact or_congr_left ⟨fun h => DName.value_injective h, fun h => by rw [h]⟩) (fun e => by simp)
    refine ⟨_, _, rfl, ?_, ?_, ?_, ?_⟩
    all_goals
      intro e
      have a := ha e
      have b := hb e
      have k := hbord e
      rw [mem_needD, value_XNF] at a
      rw [mem_countedSets] at b
      clear ha hb hbord hD hD' hE hE' hdom hraw key hk1 hk2
      cases e <;> simp [CertType.requiredBorders, needD, countedSets, DName.borderValues] at a b k ⊢ <;> tauto
  case RAR =>
    obtain ⟨data1, h8, h4⟩ := except_bind_ok h4
    obtain ⟨data2, h9, h4⟩ := except_bind_ok h4
    cases h4
    obtain ⟨D, I, N, -, -, hN, rfl⟩ := addMinus_inv h8
    obtain ⟨D', I', N', -, -, hN', rfl⟩ := addMinus_inv h9
    have hc := count_named.1 ⟨N, hN⟩
    have hc' := count_named.1 ⟨N', hN'⟩
    obtain ⟨hb, ha⟩ := key (fun e => e = .XU ∨ e = .XNF) (fun _ => False) (fun e => by
      rw [Dict.mem_keys_set, Dict.mem_keys_set]
      constructor
      · rintro (h | h | h)
        · exact Or.inl (Or.inr (DName.value_injective h))
        · exact Or.inl (Or.inl (DName.value_injective h))
        · exact Or.inr h
      · rintro ((rfl | rfl) | h)
        · exact Or.inr (Or.inl rfl)
        · exact Or.inl rfl
        · exact Or.inr (Or.inr h)) (fun e => by simp)
    refine ⟨_, _, rfl, ?_, ?_, ?_, ?_⟩
    all_goals
      intro e
      have a := ha e
      have b := hb e
      have k := hbord e
      rw [mem_needD, value_XNF] at a
      rw [mem_countedSets] at b
      clear ha hb hbord hD hD' hE hE' hdom hraw key hk1 hk2
      cases e <;> simp [CertType.requiredBorders, needD, countedSets, DName.borderValues] at a b k ⊢ <;> tauto

theorem labelsAre_of {l : List String} {s : Set String} (h1 : ∀ x ∈ l, ∃ e : DName, x = e.value) (h2 : ∀ x ∈ s, ∃ e : DName, x = e.value)
    (h : ∀ e : DName, e.value ∈ l ↔ e.value ∈ s) : LabelsAre l s := by
  intro x
  constructor
  · intro hx; obtain ⟨e, rfl⟩ := h1 x hx; exact (h e).1 hx
  · intro hx; obtain ⟨e, rfl⟩ := h2 x hx; exact (h e).2 hx

set_option maxHeartbeats 2000000 in
/-- **C66.** Conversely every configuration that follows the listing of its certificate type is read without error, and passes all label
checks whenever the formulas of its sets can be built and the numeric options are valid. -/
theorem C66_listed_suffices (lib : Lib) (n : ℕ) (c : CheckCfg) (ct : CertType)
    (hlr : 0 < c.learningRate) (hmt : c.maxTimePositive = true) (hdt : c.discrete = true → ct = .LYAPUNOV ∨ ct = .BARRIERALT)
    (domains : List (String × PySet)) (counts : List (String × ℕ)) (symb dat : List DName) (hs : ct.sets = .ok (symb, dat))
    (hf : FollowsListing ct symb dat domains counts) :
    ∃ data doms, parseConfig ct domains (some (.dict counts)) = .ok (data, doms) ∧
      ∀ d, initialiseDomains lib n ct doms = .ok d → cliStart lib n c ct domains (some (.dict counts)) = .ok (data, d) := by
  have hct : ct ≠ .CUSTOM := by rintro rfl; cases hs
  obtain ⟨U, h1, -⟩ := readDomains_ok (l := domains) (acc := []) hf.knownSets
  have hU := (readDomains_keys h1).2
  obtain ⟨doms, h2, -⟩ := addBorders_ok (bs := ct.requiredBorders) (U := U) (by
    intro b hb
    refine (hU _).2 (Or.inr ⟨b.1, rfl, ?_⟩)
    cases ct <;> simp [CertType.requiredBorders] at hb
    case RSWS | RSWA => cases hs; rcases hb with rfl | rfl <;> exact hf.setsGiven _ (by simp) (by simp) (by simp)
    all_goals (cases hs; subst hb; exact hf.setsGiven _ (by simp) (by simp) (by simp)))
  have hdk : ∀ d : DName, d.value ∈ doms.keys ↔ Named domains d ∨ ∃ b ∈ ct.requiredBorders, d = b.2 := by
    intro d
    rw [addBorders_keys h2, hU]
    constructor
    · rintro ((h | ⟨e, h, h'⟩) | ⟨b, h, h'⟩)
      · cases h
      · rw [DName.value_injective h]; exact Or.inl h'
      · exact Or.inr ⟨b, h, DName.value_injective h'⟩
    · rintro (h | ⟨b, h, rfl⟩)
      · exact Or.inl (Or.inr ⟨d, rfl, h⟩)
      · exact Or.inr ⟨b, h, rfl⟩
  obtain ⟨raw, h3, -⟩ := readDataDict_ok (doms := doms) (l := counts) (acc := []) (by
    intro k hk
    obtain ⟨d, rfl⟩ := hf.knownData k hk
    refine ⟨d, rfl, fun hb => ?_⟩
    apply Option.isSome_iff_exists.1
    rw [Dict.get?_isSome_iff, hdk]
    rcases hf.dataListed d hk with h | ⟨h, h', -⟩
    · cases ct <;> cases hs <;> cases d <;> first | (exact absurd hb (by decide)) | (exact absurd h (by decide)) | (right; simp [CertType.requiredBorders])
    · cases d <;> first | (exact absurd hb (by decide)) | (exact absurd rfl h) | (exact absurd rfl h'))
  obtain ⟨-, hraw⟩ := read_labels h1 h2 h3
  have hrawv : ∀ x ∈ raw.keys, ∃ e : DName, x = e.value := fun x hx => by
    rcases ((readDataDict_keys_iff h3).2 x).1 hx with h | ⟨e, h, -⟩
    · cases h
    · exact ⟨e, h⟩
  have hdomv : ∀ x ∈ doms.keys, ∃ e : DName, x = e.value := fun x hx => by
    rcases (addBorders_keys h2 x).1 hx with h | ⟨b, -, h⟩
    · rcases (hU x).1 h with h | ⟨e, h, -⟩
      · cases h
      · exact ⟨e, h⟩
    · exact ⟨b.2, h⟩
  have hpc : ∀ r, adjustData ct raw doms (.dict counts) = .ok r → parseConfig ct domains (some (.dict counts)) = .ok r := by
    intro r hr
    show (readDomains domains []).bind _ = _
    rw [h1]
    show (addBorders ct.requiredBorders U).bind _ = _
    rw [h2]
    show (readDataDict doms counts []).bind _ = _
    rw [h3]; exact hr
  have hcount : ∀ d ∈ dat, ∃ N, (NData.dict counts).count d = .ok N := fun d hd => count_named.2 (hf.dataGiven d hd)
  have hadj : ∃ data doms', adjustData ct raw doms (.dict counts) = .ok (data, doms') ∧
      (∀ x ∈ data.keys, ∃ e : DName, x = e.value) ∧ (∀ x ∈ doms'.keys, ∃ e : DName, x = e.value) ∧
      (∀ e : DName, e.value ∈ data.keys ↔ e.value ∈ requiredData ct) ∧
      ∀ e : DName, (e.value ∈ doms'.keys ∨ (ct = .RAR ∧ e.value = XNF)) ↔ e.value ∈ requiredDomains ct := by
    cases ct
    case CUSTOM => exact absurd rfl hct
    case LYAPUNOV | BARRIER | BARRIERALT | STABLESAFE =>
      cases hs
      refine ⟨raw, doms, rfl, hrawv, hdomv, fun e => ?_, fun e => ?_⟩
      all_goals
        have a1 := hf.setsGiven e
        have a2 := hf.setsListed e
        have a3 := hf.dataGiven e
        have a4 := hf.dataListed e
        simp only [hraw, hdk]
        simp only [mem_needD, mem_countedSets, value_XNF, value_XD, ne_eq]
        clear hf hraw hdk hcount hpc hdomv hrawv hU
        cases e <;> simp [CertType.requiredBorders, needD, countedSets] at a1 a2 a3 a4 ⊢ <;> tauto
    case ROA =>
      cases hs
      have hXD : Named domains .XD := hf.setsGiven _ (by simp) (by simp) (by simp)
      obtain ⟨D, hD⟩ : ∃ D, Dict.get? doms XD = some D :=
        Option.isSome_iff_exists.1 (Dict.get?_isSome_iff.2 ((hdk .XD).2 (Or.inl hXD)))
      have hdn : doms.keys.Nodup := by cases h2; exact readDomains_nodup (by simp [Dict.keys]) h1
      refine ⟨raw, Dict.erase doms XD, ?_, hrawv, fun x hx => hdomv x ((mem_keys_erase hdn _ _).1 hx).1, fun e => ?_, fun e => ?_⟩
      · show (Dict.get doms XD).bind _ = _
        rw [get_ok.2 hD]; rfl
      all_goals
        have a1 := hf.setsGiven e
        have a2 := hf.setsListed e
        have a3 := hf.dataGiven e
        have a4 := hf.dataListed e
        simp only [mem_keys_erase hdn, hraw, hdk]
        simp only [mem_needD, mem_countedSets, value_XNF, value_XD, ne_eq]
        clear hf hraw hdk hcount hpc hdomv hrawv hU
        cases e <;> simp [CertType.requiredBorders, needD, countedSets] at a1 a2 a3 a4 ⊢ <;> tauto
    case RWS | RWA | RSWS | RSWA =>
      cases hs
      obtain ⟨data, k1, k2⟩ := addMinus_ok (data := raw) (doms := doms) (nd := .dict counts) (label := .XU) (inner := .XS)
        ((hdk .XD).2 (Or.inl (hf.setsGiven _ (by simp) (by simp) (by simp)))) ((hdk .XS).2 (Or.inl (hf.setsGiven _ (by simp) (by simp) (by simp)))) (hcount _ (by simp))
      refine ⟨data, doms, ?_, fun x hx => ?_, hdomv, fun e => ?_, fun e => ?_⟩
      · show (addMinus raw doms (.dict counts) .XU .XS).bind _ = _
        rw [k1]; rfl
      · rcases (k2 x).1 hx with h | h
        · exact ⟨_, h⟩
        · exact hrawv x h
      all_goals
        have a1 := hf.setsGiven e
        have a2 := hf.setsListed e
        have a3 := hf.dataGiven e
        have a4 := hf.dataListed e
        simp only [k2, hraw, hdk]
        simp only [mem_needD, mem_countedSets, value_XNF, value_XD, ne_eq]
        clear hf hraw hdk hcount hpc hdomv hrawv hU
        cases e <;> simp [CertType.requiredBorders, needD, countedSets] at a1 a2 a3 a4 ⊢ <;> tauto
    case RAR =>
      cases hs
      obtain ⟨data, k1, k2⟩ := addMinus_ok (data := raw) (doms := doms) (nd := .dict counts) (label := .XU) (inner := .XS)
        ((hdk .XD).2 (Or.inl (hf.setsGiven _ (by simp) (by simp) (by simp)))) ((hdk .XS).2 (Or.inl (hf.setsGiven _ (by simp) (by simp) (by simp)))) (hcount _ (by simp))
      obtain ⟨data', k3, k4⟩ := addMinus_ok (data := data) (doms := doms) (nd := .dict counts) (label := .XNF) (inner := .XF)
        ((hdk .XD).2 (Or.inl (hf.setsGiven _ (by simp) (by simp) (by simp)))) ((hdk .XF).2 (Or.inl (hf.setsGiven _ (by simp) (by simp) (by simp)))) (hcount _ (by simp))
      refine ⟨data', doms, ?_, fun x hx => ?_, hdomv, fun e => ?_, fun e => ?_⟩
      · show (addMinus raw doms (.dict counts) .XU .XS).bind _ = _
        rw [k1]
        show (addMinus data doms (.dict counts) .XNF .XF).bind _ = _
        rw [k3]; rfl
      · rcases (k4 x).1 hx with h | h
        · exact ⟨_, h⟩
        · rcases (k2 x).1 h with h | h
          · exact ⟨_, h⟩
          · exact hrawv x h
      all_goals
        have a1 := hf.setsGiven e
        have a2 := hf.setsListed e
        have a3 := hf.dataGiven e
        have a4 := hf.dataListed e
        simp only [k4, k2, hraw, hdk]
        simp only [mem_needD, mem_countedSets, value_XNF, value_XD, ne_eq]
        clear hf hraw hdk hcount hpc hdomv hrawv hU
        cases e <;> simp [CertType.requiredBorders, needD, countedSets] at a1 a2 a3 a4 ⊢ <;> tauto
  obtain ⟨data, doms', h4, h5, h6, h7, h8⟩ := hadj
  refine ⟨data, doms', hpc _ h4, fun d hini => ?_⟩
  show (parseConfig ct domains (some (.dict counts))).bind _ = _
  rw [hpc _ h4]
  show (initialiseDomains lib n ct doms').bind _ = _
  rw [hini]
  show (cegisAssertState c ct d.keys data.keys).bind _ = _
  have : cegisAssertState c ct d.keys data.keys = .ok () := by
    rw [C42_cegis_state_iff]
    refine ⟨hlr, hmt, hdt, (C42_assert_state_iff ct hct _ _).1.2 ⟨?_, Or.inl (labelsAre_of h5 (requiredData_values ct) h7)⟩⟩
    refine labelsAre_of (fun x hx => ?_) (requiredDomains_values ct) (fun e => by rw [initialise_keys hini, h8])
    rcases (initialise_keys hini x).1 hx with h | ⟨-, h⟩
    · exact h6 x h
    · exact ⟨.XNF, h⟩
  rw [this]; rfl

/-- CUSTOM is an admissible value of `--certificate`, but nothing is listed for it: the command raises. -/
theorem C66_custom_not_listed : CertType.CUSTOM.sets = .error .nameError := rfl

/-- **C66, the defect.** For ReachAvoidRemain a set XNF in DOMAINS is accepted (`C66_listed_suffices`) and has no effect: whatever set is
given, the formula with that label is that of the complement of XF. -/
theorem C66_not_final_ignored (lib : Lib) (n : ℕ) (doms : Dict String PySet) (d : Dict String Formula)
    (h : initialiseDomains lib n .RAR doms = .ok d) :
    ∃ F φ, Dict.get? doms XF = some F ∧ F.generateComplement lib (vars n) = .ok φ ∧ Dict.get? d XNF = some φ := by
  unfold initialiseDomains at h
  split at h
  · cases h
  rw [if_pos rfl] at h
  obtain ⟨S, h1, h2⟩ := except_bind_ok h
  obtain ⟨φ, h3, h4⟩ := except_bind_ok h2
  cases h4
  exact ⟨S, φ, getE_ok.1 h1, h3, by rw [Dict.get?_set, if_pos rfl]⟩

/-- The hypotheses hold of a concrete configuration: reach-while-avoid with a count also for a name without set. -/
example : ∃ symb dat, CertType.RWA.sets = .ok (symb, dat) ∧
    FollowsListing .RWA symb dat [("XD", PySet.reals 1), ("XI", PySet.sphere [0] 1 none), ("XG", PySet.empty), ("XS", PySet.reals 1)]
      [("XU", 10), ("XI", 5), ("XD", 100), ("XF", 3)] := by
  refine ⟨_, _, rfl, ?_, ?_, ?_, ?_, ?_, ?_⟩
  · simp only [List.map_cons, List.map_nil, List.forall_mem_cons]
    exact ⟨⟨.XD, rfl⟩, ⟨.XI, rfl⟩, ⟨.XG, rfl⟩, ⟨.XS, rfl⟩, by simp⟩
  · simp only [List.map_cons, List.map_nil, List.forall_mem_cons]
    exact ⟨⟨.XU, rfl⟩, ⟨.XI, rfl⟩, ⟨.XD, rfl⟩, ⟨.XF, rfl⟩, by simp⟩
  all_goals (intro e; cases e <;> simp [Named, DName.name])

end Fossil
