/-
C76: a configuration file run to its end: reading, drawing of data, training, verification, result.
-/
import Verif.Start
import Verif.Props.C56_Config
import Verif.Props.C75_Double

namespace Fossil
open Spec Set

/-! ### the data sources of an accepted file -/

namespace Spec

/-- The shapes that can be written in a configuration file. -/
def PlainSet (n : ℕ) : PySet → Prop
  | .rectangle lb ub ds => lb.length = n ∧ ub.length = n ∧ ds = none
  | .sphere c _ ds => c.length = n ∧ ds = none
  | .torus c _ _ ds => c.length = n ∧ ds = none
  | _ => False

/-- Data sources of such shapes: samples of a shape, of a difference of two shapes, of the border of a shape. -/
def PlainSource (n : ℕ) : Src → Prop
  | .interior (.setMinus S T) _ => PlainSet n S ∧ PlainSet n T
  | .interior S _ => PlainSet n S
  | .border S _ => PlainSet n S

end Spec

theorem plain_of_text {n : ℕ} {s : String} {S : Set (Pt n)} (h : SetText n s S) {P : PySet} (hp : parseDomain s = .ok P) : PlainSet n P := by
  cases h with
  | rectangle hl hu e1 e2 hs => rw [C55_rectangle_text _ _ _ _ hl hu _ hs] at hp; cases hp; exact ⟨e1, e2, rfl⟩
  | sphere hc hr e1 h0 hs => rw [C55_sphere_text _ _ _ _ hc hr _ hs] at hp; cases hp; exact ⟨e1, rfl⟩
  | torus hc ho hi e1 h0 hlt hs => rw [C55_torus_text _ _ _ _ _ _ hc ho hi _ hs, if_pos hlt] at hp; cases hp; exact ⟨e1, rfl⟩

theorem plain_interior {n : ℕ} {S : PySet} (h : PlainSet n S) (g : Rng) (b : ℕ) :
    ∃ rows, S.generateData g b = .ok rows ∧ rows.length = b ∧ ∀ r ∈ rows, r.length = n := by
  cases S with
  | rectangle lb ub ds =>
    obtain ⟨h1, h2, -⟩ := h
    refine ⟨_, by rw [PySet.generateData, squareInitData, if_pos (h1.trans h2.symm)], by simp, fun r hr => ?_⟩
    obtain ⟨i, -, rfl⟩ := mem_mkRows.1 hr
    simp [h1]
  | sphere c r ds => exact ⟨_, rfl, length_roundInitData _ _ _ _ _, fun r hr => (round_width hr).trans h.1⟩
  | torus c ro ri ds => exact ⟨_, rfl, length_roundInitData _ _ _ _ _, fun r hr => (round_width hr).trans h.1⟩
  | _ => exact h.elim

theorem plain_contain {n : ℕ} {S : PySet} (h : PlainSet n S) (x : List ℝ) (hx : x.length = n) : ∃ P, S.checkContainment x = .ok P := by
  cases S with
  | rectangle lb ub ds =>
    obtain ⟨h1, h2, rfl⟩ := h
    exact ⟨_, by rw [PySet.checkContainment, if_pos ⟨h1.trans hx.symm, h2.trans hx.symm⟩]⟩
  | sphere c r ds =>
    obtain ⟨h1, rfl⟩ := h
    exact ⟨_, by simp only [PySet.checkContainment, rowSub, hx, h1, if_true, Bind.bind, Except.bind, pure, Except.pure]; rfl⟩
  | torus c ro ri ds =>
    obtain ⟨h1, rfl⟩ := h
    exact ⟨_, by simp only [PySet.checkContainment, rowSub, hx, h1, if_true, Bind.bind, Except.bind, pure, Except.pure]; rfl⟩
  | _ => exact h.elim

theorem plain_filter {n : ℕ} {T : PySet} (h : PlainSet n T) (keep : Bool) : ∀ rows : Rows, (∀ r ∈ rows, r.length = n) →
    ∃ out, filterRows T keep rows = .ok out ∧ ∀ r ∈ out, r.length = n := by
  intro rows
  induction rows with
  | nil => intro _; exact ⟨[], rfl, by simp⟩
  | cons r rows ih =>
    intro hr
    obtain ⟨P, hP⟩ := plain_contain h r (hr r (by simp))
    obtain ⟨out, ho, hw⟩ := ih (fun r' h' => hr r' (by simp [h']))
    refine ⟨_, by simp only [filterRows, hP, ho, Bind.bind, Except.bind, pure, Except.pure]; rfl, fun r' h' => ?_⟩
    split at h'
    · rcases List.mem_cons.1 h' with rfl | h'
      · exact hr _ (by simp)
      · exact hw _ h'
    · exact hw _ h'

theorem plain_border {n : ℕ} {S : PySet} (h : PlainSet n S) (g : Rng) (b : ℕ) :
    ∃ rows, S.sampleBorder g b = .ok rows ∧ rows.length = b ∧ ∀ r ∈ rows, r.length = n := by
  cases S with
  | rectangle lb ub ds =>
    obtain ⟨h1, h2, -⟩ := h
    refine ⟨_, by rw [PySet.sampleBorder, rectSampleBorder, if_pos (h1.trans h2.symm)], by simp [length_roundInitData], fun r hr => ?_⟩
    obtain ⟨u, hu, rfl⟩ := List.mem_map.1 hr
    have := round_width hu
    simp only [List.length_replicate, h1] at this
    simp only [cubeMove, length_mkRow, sphereToCube]
    split <;> simpa using this
  | sphere c r ds => exact ⟨_, rfl, length_roundInitData _ _ _ _ _, fun r hr => (round_width hr).trans h.1⟩
  | torus c ro ri ds => exact ⟨_, rfl, length_roundInitData _ _ _ _ _, fun r hr => (round_width hr).trans h.1⟩
  | _ => exact h.elim

namespace Spec

/-- The number of samples a source is asked for, if it gives exactly that number (a difference of sets gives those that remain after filtering). -/
def exactCount : Src → Option ℕ
  | .interior (.setMinus _ _) _ => none
  | .interior _ N => some N
  | .border _ N => some N

end Spec

/-- A source of an accepted file can be called, whatever is drawn, and gives rows of the right width. -/
theorem plainSrc_sample {n : ℕ} {src : Src} (h : PlainSource n src) (g : Rng) :
    ∃ rows, src.sample g = .ok rows ∧ (∀ r ∈ rows, r.length = n) ∧ ∀ N, exactCount src = some N → rows.length = N := by
  cases src with
  | border S N =>
    obtain ⟨rows, h1, h2, h3⟩ := plain_border h g N
    exact ⟨rows, h1, h3, fun M hM => by cases hM; exact h2⟩
  | interior S N =>
    by_cases hm : ∃ A B, S = .setMinus A B
    · obtain ⟨A, B, rfl⟩ := hm
      obtain ⟨rows, h1, -, h3⟩ := plain_interior h.1 g N
      obtain ⟨out, h4, h5⟩ := plain_filter h.2 false rows h3
      exact ⟨out, by simp only [Src.sample, PySet.generateData, h1, h4, Bind.bind, Except.bind], h5, fun M hM => by cases hM⟩
    · have hp : PlainSet n S := by
        cases S with
        | setMinus A B => exact absurd ⟨A, B, rfl⟩ hm
        | _ => exact h
      have he : exactCount (.interior S N) = some N := by
        cases S with
        | setMinus A B => exact absurd ⟨A, B, rfl⟩ hm
        | _ => rfl
      obtain ⟨rows, h1, h2, h3⟩ := plain_interior hp g N
      exact ⟨rows, h1, h3, fun M hM => by rw [he] at hM; cases hM; exact h2⟩

theorem adjustData_plain {n : ℕ} {ct : CertType} {raw data : Dict String Src} {B doms : Dict String PySet} {nd : NData} (hB : ∀ e ∈ B, PlainSet n e.2)
    (hr : ∀ e ∈ raw, PlainSource n e.2) (h : adjustData ct raw B nd = .ok (data, doms)) : ∀ e ∈ data, PlainSource n e.2 := by
  have minus : ∀ {d d' : Dict String Src} {label inner : DName}, (∀ e ∈ d, PlainSource n e.2) → addMinus d B nd label inner = .ok d' → ∀ e ∈ d', PlainSource n e.2 := by
    intro d d' label inner hd h
    obtain ⟨D, h1, h⟩ := except_bind_ok h
    obtain ⟨I, h2, h⟩ := except_bind_ok h
    obtain ⟨N, h3, h⟩ := except_bind_ok h
    cases h
    intro e he
    rcases mem_set e he with h | h
    · rw [h]
      exact ⟨hB _ (Dict.get?_eq_some_mem (get_ok.1 h1)), hB _ (Dict.get?_eq_some_mem (get_ok.1 h2))⟩
    · exact hd e h
  cases ct
  case ROA =>
    obtain ⟨D, -, h⟩ := except_bind_ok h
    cases h; exact hr
  case RWS | RWA | RSWS | RSWA =>
    obtain ⟨d1, h1, h⟩ := except_bind_ok h
    cases h; exact minus hr h1
  case RAR =>
    obtain ⟨d1, h1, h⟩ := except_bind_ok h
    obtain ⟨d2, h2, h⟩ := except_bind_ok h
    cases h; exact minus (minus hr h1) h2
  all_goals (cases h; exact hr)

theorem readDomains_all {Q : PySet → Prop} : ∀ (l : List (String × PySet)) (acc U : Dict String PySet), (∀ e ∈ l, Q e.2) → (∀ e ∈ acc, Q e.2) →
    readDomains l acc = .ok U → ∀ e ∈ U, Q e.2 := by
  intro l
  induction l with
  | nil => intro acc U _ ha h; cases h; exact ha
  | cons a l ih =>
    obtain ⟨k, S⟩ := a
    intro acc U hl ha h
    obtain ⟨d, h1, h2⟩ := except_bind_ok h
    refine ih _ U (fun e he => hl e (by simp [he])) (fun e he => ?_) h2
    rcases mem_set e he with h | h
    · rw [h]; exact hl (k, S) (by simp)
    · exact ha e h

theorem addBorders_all {Q : PySet → Prop} : ∀ (bs : List (DName × DName)) (U B : Dict String PySet), (∀ e ∈ U, Q e.2) → addBorders bs U = .ok B →
    ∀ e ∈ B, Q e.2 := by
  intro bs
  induction bs with
  | nil => intro U B hU h; cases h; exact hU
  | cons b bs ih =>
    obtain ⟨x, y⟩ := b
    intro U B hU h
    obtain ⟨S, h1, h2⟩ := except_bind_ok h
    refine ih _ B (fun e he => ?_) h2
    rcases mem_set e he with h | h
    · rw [h]; exact hU _ (Dict.get?_eq_some_mem (get_ok.1 h1))
    · exact hU e h

/-- The data sources of a file whose sets have plain shapes. -/
theorem parseConfig_sources {n : ℕ} {ct : CertType} {D : List (String × PySet)} (hw : ∀ e ∈ D, PlainSet n e.2) {nd : Option NData} {data : Dict String Src}
    {doms : Dict String PySet} (h : parseConfig ct D nd = .ok (data, doms)) : ∀ e ∈ data, PlainSource n e.2 := by
  have hint : ∀ {S : PySet} {N : ℕ}, PlainSet n S → PlainSource n (.interior S N) := by
    intro S N h
    cases S with
    | setMinus A B => exact h.elim
    | _ => exact h
  obtain ⟨U, h1, h⟩ := except_bind_ok h
  obtain ⟨B, h2, h⟩ := except_bind_ok h
  have hB : ∀ e ∈ B, PlainSet n e.2 := by
    exact addBorders_all _ U B (readDomains_all D [] U hw (by simp) h1) h2
  cases nd with
  | none => cases h
  | some nd =>
    cases nd with
    | int N =>
      refine adjustData_plain hB ?_ h
      clear h h2
      induction B with
      | nil => intro e he; cases he
      | cons a B ih =>
        obtain ⟨k, S⟩ := a
        intro e he
        rcases List.mem_cons.1 he with rfl | he
        · exact hint (hB (k, S) (by simp))
        · exact ih (fun e he => hB e (by simp [he])) e he
    | dict l =>
      obtain ⟨raw, h3, h4⟩ := except_bind_ok h
      refine adjustData_plain hB ?_ h4
      have key : ∀ (l : List (String × ℕ)) (acc raw : Dict String Src), (∀ e ∈ acc, PlainSource n e.2) → readDataDict B l acc = .ok raw → ∀ e ∈ raw, PlainSource n e.2 := by
        intro l
        induction l with
        | nil => intro acc raw ha h; cases h; exact ha
        | cons a l ih =>
          obtain ⟨k, N⟩ := a
          intro acc raw ha h
          obtain ⟨d, -, h⟩ := except_bind_ok h
          split at h
          · obtain ⟨S, hS, h⟩ := except_bind_ok h
            refine ih _ raw (fun e he => ?_) h
            rcases mem_set e he with h | h
            · rw [h]; exact hB _ (Dict.get?_eq_some_mem (get_ok.1 hS))
            · exact ha e h
          · split at h
            · rename_i S hS
              refine ih _ raw (fun e he => ?_) h
              rcases mem_set e he with h | h
              · rw [h]; exact hint (hB _ (Dict.get?_eq_some_mem hS))
              · exact ha e h
            · exact ih _ raw ha h
      exact key l [] raw (by simp) h3

/-- The sets and data sources of an accepted file. -/
theorem accepted_plain {c : ConfigText} (hd : DomainsDescribed c) {cfg : SynthCfg} {data} (h : readSets c = .ok (cfg, data)) :
    (∀ e ∈ cfg.domains, PlainSet c.nVars e.2) ∧ (∀ e ∈ data, PlainSource c.nVars e.2) := by
  obtain ⟨D, d, h2, h3, -⟩ := readSets_inv h
  have hp : ∀ e ∈ D, PlainSet c.nVars e.2 := by
    rintro ⟨k, S⟩ he
    obtain ⟨s, h4, h5⟩ := (readDomainTexts_get h2).2.2 k S he
    obtain ⟨T, hT⟩ := hd.texts k s h4
    exact plain_of_text hT h5
  exact ⟨parseConfig_all hp h3, parseConfig_sources hp h3⟩

theorem initData_total {n : ℕ} (fl : ℝ → ℚ) : ∀ (data : Dict String Src) (g : ℕ → Rng), (∀ e ∈ data, PlainSource n e.2) →
    ∃ S, initData fl g data = .ok S ∧ Dict.keys S = Dict.keys data ∧ (∀ e ∈ S, ∀ r ∈ e.2, r.length = n) ∧
      ∀ l N, (∃ src, Dict.get? data l = some src ∧ exactCount src = some N) → ∃ rows, Dict.get? S l = some rows ∧ rows.length = N := by
  intro data
  induction data with
  | nil => intro g _; exact ⟨[], rfl, rfl, by simp, by rintro l N ⟨src, h, -⟩; cases h⟩
  | cons e data ih =>
    obtain ⟨l, src⟩ := e
    intro g h
    obtain ⟨rows, h1, h2, h3⟩ := plainSrc_sample (h (l, src) (by simp)) (g 0)
    obtain ⟨S, i1, i2, i3, i4⟩ := ih (fun k => g (k + 1)) (fun e he => h e (by simp [he]))
    refine ⟨(l, rows.map (List.map fl)) :: S, by simp only [initData, h1, i1, Bind.bind, Except.bind, pure, Except.pure], ?_, ?_, ?_⟩
    · simp only [Dict.keys, List.map_cons] at i2 ⊢; rw [i2]
    · intro e he r hr
      rcases List.mem_cons.1 he with rfl | he
      · obtain ⟨r', hr', rfl⟩ := List.mem_map.1 hr
        rw [List.length_map]; exact h2 r' hr'
      · exact i3 e he r hr
    · rintro l' N ⟨src', h4, h5⟩
      rw [Dict.get?_cons] at h4 ⊢
      split_ifs at h4 ⊢ with hl
      · cases h4; exact ⟨_, rfl, by rw [List.length_map]; exact h3 N h5⟩
      · exact i4 l' N ⟨src', h4, h5⟩

/-- **C76 (the initial data).** For every accepted file whose set texts describe sets, and whatever is drawn, drawing the initial data does not raise: there
is an entry for every data label, its rows have one entry per state variable, and except for the sets obtained by subtraction (XU of the reach certificates, XNF)
there are exactly as many rows as the file asks for. -/
theorem C76_initial_data (c : ConfigText) (r : Ready) (hd : DomainsDescribed c) (h : readConfig c = .ok r) (fl : ℝ → ℚ) (g : ℕ → Rng) :
    ∃ S, initData fl g r.data = .ok S ∧ Dict.keys S = Dict.keys r.data ∧ (∀ l rows, Dict.get? S l = some rows → ∀ x ∈ rows, x.length = c.nVars) ∧
      ∀ l src N, Dict.get? r.data l = some src → exactCount src = some N → ∃ rows, Dict.get? S l = some rows ∧ rows.length = N := by
  obtain ⟨S, h1, h2, h3, h4⟩ := initData_total fl r.data g (accepted_plain hd (readConfig_inv h).2).2
  exact ⟨S, h1, h2, fun l rows hl x hx => h3 _ (Dict.get?_eq_some_mem hl) x hx, fun l src N a b => h4 l N ⟨src, a, b⟩⟩

/-! ### what is needed for the run -/

theorem accepted_usable {c : ConfigText} (hd : DomainsDescribed c) {cfg : SynthCfg} {data} (h : readSets c = .ok (cfg, data)) : UsableSets c.nVars cfg.domains := by
  obtain ⟨D, d, h2, h3, -⟩ := readSets_inv h
  intro e he
  have := parseConfig_all (Q := fun P => WF c.nVars P ∧ BoundaryOK P) (config_wf hd h2) h3 e he
  exact ⟨this.1, fun _ => this.2⟩

theorem readSets_check {c : ConfigText} {cfg : SynthCfg} {data} (h : readSets c = .ok (cfg, data)) :
    ∃ d, initialiseDomains c.lib c.nVars c.cert cfg.domains = .ok d ∧ cegisAssertState c.check c.cert (Dict.keys d) (Dict.keys data) = .ok () ∧
      assertState c.cert (Dict.keys d) (Dict.keys data) = .ok () := by
  obtain ⟨D, h2, h⟩ := except_bind_ok h
  obtain ⟨⟨data, doms⟩, h3, h⟩ := except_bind_ok h
  obtain ⟨d, h4, h⟩ := except_bind_ok h
  obtain ⟨u, h5, h⟩ := except_bind_ok h
  cases h
  refine ⟨d, h4, h5, ?_⟩
  unfold cegisAssertState at h5
  split_ifs at h5
  exact h5

/-- The sets a certificate needs are those of the accepted file. -/
theorem accepted_sets {c : ConfigText} (hc : c.cert ≠ .CUSTOM) {cfg : SynthCfg} {data} (h : readSets c = .ok (cfg, data)) :
    ∀ l ∈ setsOf c.cert, ∃ S, Dict.get? cfg.domains l = some S := by
  obtain ⟨d, h1, -, h2⟩ := readSets_check h
  have hk := ((C42_assert_state_iff c.cert hc (Dict.keys d) (Dict.keys data)).1.1 h2).1
  intro l hl
  have h3 : l ∈ requiredDomains c.cert ∧ l ≠ XNF := by
    revert hl
    cases c.cert <;> intro hl <;> simp only [setsOf, List.mem_cons, List.not_mem_nil, or_false] at hl <;>
      (rcases hl with rfl | rfl | rfl | rfl | rfl | rfl) <;> exact ⟨by simp [requiredDomains], by decide⟩
  rcases (initialise_keys h1 l).1 ((hk l).2 h3.1) with h4 | ⟨-, h4⟩
  · exact Option.isSome_iff_exists.1 (Dict.get?_isSome_iff.2 h4)
  · exact absurd h4 h3.2

theorem plain_lyapunov {n : ℕ} {S : PySet} (h : PlainSet n S) : BorderDrawn S ∧ AllCoords n S ∧ unionDepth S ≤ 8 := by
  cases S with
  | rectangle lb ub ds => exact ⟨trivial, trivial, by simp [unionDepth]⟩
  | sphere c r ds => obtain ⟨h1, rfl⟩ := h; exact ⟨trivial, rfl, by simp [unionDepth]⟩
  | torus c ro ri ds => obtain ⟨h1, rfl⟩ := h; exact ⟨trivial, rfl, by simp [unionDepth]⟩
  | _ => exact h.elim

/-! ### the initial network -/

theorem actsOf_total : ∀ as : List ActivationType, (∀ a ∈ as, a ≠ .RATIONAL) → ∃ l, actsOf as = .ok l ∧ l.length = as.length ∧ as.map activationFcn = l.map some := by
  intro as
  induction as with
  | nil => intro _; exact ⟨[], rfl, rfl, rfl⟩
  | cons a as ih =>
    intro h
    obtain ⟨l, h1, h2, h3⟩ := ih (fun x hx => h x (by simp [hx]))
    have ha := h a (by simp)
    obtain ⟨x, hx⟩ : ∃ x, activationFcn a = some x := by
      cases a <;> first | exact absurd rfl ha | exact ⟨_, rfl⟩
    exact ⟨x :: l, by simp only [actsOf, hx, h1, Except.map], by simp [h2], by simp [hx, h3]⟩

theorem length_hiddenLayers (bias : Bool) (w : ℕ → ℕ → ℕ → ℚ) (b : ℕ → ℕ → ℚ) : ∀ (hidden : List ℕ) (k prev : ℕ), (hiddenLayers bias w b k prev hidden).length = hidden.length := by
  intro hidden
  induction hidden with
  | nil => intro k prev; rfl
  | cons m ms ih => intro k prev; simp [hiddenLayers, ih]

theorem hiddenLayers_shaped (bias : Bool) (w : ℕ → ℕ → ℕ → ℚ) (b : ℕ → ℕ → ℚ) (last : Layer) : ∀ (hidden : List ℕ) (k prev : ℕ),
    shapedFrom (lastWidth prev hidden) [last] → shapedFrom prev (hiddenLayers bias w b k prev hidden ++ [last]) := by
  intro hidden
  induction hidden with
  | nil => intro k prev h; exact h
  | cons m ms ih =>
    intro k prev h
    refine ⟨fun r hr => ?_, fun c hc => ?_, ?_⟩
    · obtain ⟨i, -, rfl⟩ := List.mem_map.1 hr
      simp
    · cases bias <;> simp at hc
      rw [← hc]; simp [initMat]
    · have : (initMat w k m prev).length = m := by simp [initMat]
      rw [this]; exact ih (k + 1) m h

theorem hiddenLayers_bias (w : ℕ → ℕ → ℕ → ℚ) (b : ℕ → ℕ → ℚ) : ∀ (hidden : List ℕ) (k prev : ℕ), ∀ l ∈ hiddenLayers false w b k prev hidden, l.bias = none := by
  intro hidden
  induction hidden with
  | nil => intro k prev l hl; cases hl
  | cons m ms ih =>
    intro k prev l hl
    rcases List.mem_cons.1 hl with rfl | hl
    · rfl
    · exact ih _ _ l hl

/-- **C76 (the initial network).** For every hidden-layer list and at least as many activations, all known, with LLO at least one of them, construction of the network
does not raise, whatever the random weights: the network has the hidden widths asked for and one output, it has biases exactly if the certificate class asks for
them, and its activations are the ones of the file in order. -/
theorem C76_initial_network (n : ℕ) (hidden : List ℕ) (acts : List ActivationType) (llo bias : Bool) (w : ℕ → ℕ → ℕ → ℚ) (b : ℕ → ℕ → ℚ)
    (hlen : hidden.length ≤ acts.length) (hknown : ∀ a ∈ acts, a ≠ .RATIONAL) (hllo : llo = true → acts ≠ []) :
    ∃ net, newNet n hidden acts llo bias w b = .ok net ∧ Shaped n net ∧ net.layers.map (fun l => l.weight.length) = hidden ++ [1] ∧
      (∀ l ∈ net.layers, l.bias.isSome = bias) ∧ acts.map activationFcn = net.acts.map some := by
  obtain ⟨as, h1, h2, h3⟩ := actsOf_total acts hknown
  have hne : llo = true → ∃ a, as.getLast? = some a := by
    intro h
    have : as ≠ [] := by
      intro e; rw [e] at h2
      exact hllo h (by simpa using h2.symm)
    exact ⟨_, List.getLast?_eq_some_getLast this⟩
  obtain ⟨ta, hta⟩ : ∃ ta, takeAbs llo as = .ok ta := by
    unfold takeAbs
    cases llo with
    | false => exact ⟨false, rfl⟩
    | true =>
      obtain ⟨a, ha⟩ := hne rfl
      exact ⟨!a.isPolynomialName, by simp [ha]⟩
  set last := initLastLayer llo ta bias ((List.range (lastWidth n hidden)).map (w hidden.length 0)) (b hidden.length 0) with hlast
  set net : Net := ⟨n, hiddenLayers bias w b 0 n hidden ++ [last], as⟩ with hnet
  obtain ⟨wn, hw⟩ : ∃ x, lloWarning llo net = .ok x := by
    unfold lloWarning Net.isPositiveDefinite
    cases llo with
    | false => exact ⟨false, rfl⟩
    | true =>
      obtain ⟨a, ha⟩ := hne rfl
      have e1 : net.acts.getLast? = some a := ha
      have e2 : net.layers.getLast? = some last := by simp [hnet]
      rw [e1, e2]
      exact ⟨_, rfl⟩
  have hb1 : ∀ l ∈ net.layers, l.bias.isSome = bias := by
    have key : ∀ (hidden : List ℕ) (k prev : ℕ), ∀ l ∈ hiddenLayers bias w b k prev hidden, l.bias.isSome = bias := by
      intro hidden
      induction hidden with
      | nil => intro k prev l hl; cases hl
      | cons m ms ih =>
        intro k prev l hl
        rcases List.mem_cons.1 hl with rfl | hl
        · cases bias <;> rfl
        · exact ih _ _ l hl
    intro l hl
    rcases List.mem_append.1 hl with hl | hl
    · exact key _ _ _ l hl
    · rw [List.mem_singleton.1 hl]; cases bias <;> rfl
  have hl1 : shapedFrom (lastWidth n hidden) [last] := by
    refine ⟨fun r hr => ?_, fun c hc => ?_, trivial⟩
    · rw [hlast] at hr
      simp only [initLastLayer, List.mem_singleton] at hr
      rw [hr]; split <;> simp
    · rw [hlast] at hc
      cases bias <;> simp [initLastLayer] at hc
      rw [← hc]; simp [hlast, initLastLayer]
  refine ⟨net, ?_, ⟨rfl, hiddenLayers_shaped bias w b last hidden 0 n hl1, ?_, last, by simp [hnet], by simp [hlast, initLastLayer]⟩, ?_, hb1, h3⟩
  · unfold newNet
    simp only [h1, hta, Bind.bind, Except.bind, pure, Except.pure]
    rw [← hlast, ← hnet, hw]
  · simp [hnet, length_hiddenLayers, h2, hlen]
  · have key : ∀ (hidden : List ℕ) (k prev : ℕ), (hiddenLayers bias w b k prev hidden).map (fun l => l.weight.length) = hidden := by
      intro hidden
      induction hidden with
      | nil => intro k prev; rfl
      | cons m ms ih => intro k prev; simp [hiddenLayers, ih, initMat]
    simp [hnet, key, hlast, initLastLayer]

namespace Spec

/-- Two networks of the same architecture: the same inputs, activations, layer sizes and biases. -/
def SameShape (net net' : Net) : Prop := net'.inputSize = net.inputSize ∧ net'.acts = net.acts ∧
  List.Forall₂ (fun l l' : Layer => l'.weight.map List.length = l.weight.map List.length ∧ l'.bias.map List.length = l.bias.map List.length) net.layers net'.layers

/-- A network architecture a problem can be solved with: it can be translated, and it is differentiable. -/
def Arch (lib : Lib) (n : ℕ) (net : Net) : Prop := Usable lib n net ∧ smoothActs net

end Spec

theorem sameShape_usable {lib : Lib} {n : ℕ} {net net' : Net} (h : SameShape net net') (hu : Usable lib n net) : Usable lib n net' := by
  obtain ⟨h1, h2, h3⟩ := h
  have := usable_dims hu (ls := net'.layers) (h3.imp fun l l' h => ⟨h.1, fun b hb => by
    rw [hb] at h
    cases hl : l.bias with
    | none => rw [hl] at h; cases h.2
    | some b' => rw [hl] at h; exact ⟨b', rfl, by simpa using h.2⟩⟩)
  have e : net' = { net with layers := net'.layers } := by
    cases net'; simp only at h1 h2; subst h1 h2; rfl
  rw [e]; exact this

theorem sameShape_smooth {net net' : Net} (h : SameShape net net') (hu : smoothActs net) : smoothActs net' := by
  intro a ha; rw [h.2.1] at ha; exact hu a ha

theorem sameShape_zero {net net' : Net} (h : SameShape net net') (hu : ZeroNet net) : ZeroNet net' := by
  refine ⟨?_, fun a ha => ?_⟩
  · have key : ∀ {ls ls' : List Layer}, List.Forall₂ (fun l l' : Layer => l'.weight.map List.length = l.weight.map List.length ∧
        l'.bias.map List.length = l.bias.map List.length) ls ls' → (∀ l ∈ ls, l.bias = none) → ∀ l ∈ ls', l.bias = none := by
      intro ls ls' h
      induction h with
      | nil => intro _ l hl; cases hl
      | @cons l l' ls ls' h _ ih =>
        intro hb x hx
        rcases List.mem_cons.1 hx with rfl | hx
        · have := h.2
          rw [hb l (by simp)] at this
          simpa using this
        · exact ih (fun y hy => hb y (by simp [hy])) x hx
    exact key h.2.2 hu.bias
  · rw [h.2.1] at ha; exact hu.acts a ha

/-! ### training only reaches networks of the initial architecture -/

open Classical in
/-- A learner that refuses networks without a property; used only in proofs. -/
noncomputable def guardLearn {N K P E : Type} (Q : N → Prop) (learn : LoopState N K P E → Except Err (N × K)) (st : LoopState N K P E) : Except Err (N × K) :=
  if Q st.net then learn st else .error .runtimeError

theorem loopBody_guard {N K P E : Type} {cfg : LoopCfg} {C : Components N K P E} {Q : N → Prop} {st : LoopState N K P E} (h : Q st.net) :
    loopBody cfg { C with learn := guardLearn Q C.learn } st = loopBody cfg C st := by
  have e : guardLearn Q C.learn st = C.learn st := if_pos h
  unfold loopBody
  show Except.bind (guardLearn Q C.learn st) _ = Except.bind (C.learn st) _
  rw [e]
  rfl

theorem solves_guard {N K P E : Type} {cfg : LoopCfg} {C : Components N K P E} {Q : N → Prop} (hQ : ∀ st n k, Q st.net → C.learn st = .ok (n, k) → Q n)
    {net ctrl S out} (h0 : Q net) (h : Solves cfg C net ctrl S out) : Solves cfg { C with learn := guardLearn Q C.learn } net ctrl S out ∧ Q out.net := by
  obtain ⟨k, st, hs, hb⟩ := h
  have key : Q st.net ∧ Steps cfg { C with learn := guardLearn Q C.learn } (initState C net ctrl S) k st := by
    clear hb
    generalize hi : initState C net ctrl S = s0 at hs ⊢
    induction hs with
    | refl => subst hi; exact ⟨h0, .refl _⟩
    | @tail k0 st' st'' _ hb' ih =>
      obtain ⟨i1, i2⟩ := ih
      obtain ⟨k1, hk⟩ := loopBody_net hb'
      exact ⟨hQ _ _ _ i1 hk, .tail i2 (by rw [loopBody_guard i1]; exact hb')⟩
  obtain ⟨k1, hk⟩ := loopBody_net hb
  exact ⟨⟨k, st, key.2, by rw [loopBody_guard key.1]; exact hb⟩, hQ _ _ _ key.1 hk⟩

/-! ### keys of the data -/

theorem parseConfig_nodup {ct : CertType} {D : List (String × PySet)} {nd : Option NData} {data : Dict String Src} {doms : Dict String PySet}
    (h : parseConfig ct D nd = .ok (data, doms)) : (Dict.keys data).Nodup := by
  have minus : ∀ {d d' : Dict String Src} {B : Dict String PySet} {nd : NData} {label inner : DName}, (Dict.keys d).Nodup → addMinus d B nd label inner = .ok d' →
      (Dict.keys d').Nodup := by
    intro d d' B nd label inner hd h
    obtain ⟨D, h1, h⟩ := except_bind_ok h
    obtain ⟨I, h2, h⟩ := except_bind_ok h
    obtain ⟨N, h3, h⟩ := except_bind_ok h
    cases h
    exact Dict.nodup_keys_set _ _ _ hd
  have adj : ∀ {raw data : Dict String Src} {B doms : Dict String PySet} {nd : NData}, (Dict.keys raw).Nodup → adjustData ct raw B nd = .ok (data, doms) →
      (Dict.keys data).Nodup := by
    intro raw data B doms nd hr h
    cases ct
    case ROA =>
      obtain ⟨D, -, h⟩ := except_bind_ok h
      cases h; exact hr
    case RWS | RWA | RSWS | RSWA =>
      obtain ⟨d1, h1, h⟩ := except_bind_ok h
      cases h; exact minus hr h1
    case RAR =>
      obtain ⟨d1, h1, h⟩ := except_bind_ok h
      obtain ⟨d2, h2, h⟩ := except_bind_ok h
      cases h; exact minus (minus hr h1) h2
    all_goals (cases h; exact hr)
  obtain ⟨U, h1, h⟩ := except_bind_ok h
  obtain ⟨B, h2, h⟩ := except_bind_ok h
  have hB : (Dict.keys B).Nodup := by
    have hU := readDomains_nodup (l := D) (acc := []) (by simp [Dict.keys]) h1
    have : ∀ (bs : List (DName × DName)) (U B : Dict String PySet), (Dict.keys U).Nodup → addBorders bs U = .ok B → (Dict.keys B).Nodup := by
      intro bs
      induction bs with
      | nil => intro U B hU h; cases h; exact hU
      | cons b bs ih =>
        obtain ⟨x, y⟩ := b
        intro U B hU h
        obtain ⟨S, h1, h2⟩ := except_bind_ok h
        exact ih _ B (Dict.nodup_keys_set _ _ _ hU) h2
    exact this _ U B hU h2
  cases nd with
  | none => cases h
  | some nd =>
    cases nd with
    | int N =>
      refine adj ?_ h
      have : ∀ B : Dict String PySet, Dict.keys (readDataInt N B) = Dict.keys B := by
        intro B
        induction B with
        | nil => rfl
        | cons a B ih => obtain ⟨k, S⟩ := a; exact congrArg (k :: ·) ih
      rw [this]; exact hB
    | dict l =>
      obtain ⟨raw, h3, h4⟩ := except_bind_ok h
      refine adj ?_ h4
      have key : ∀ (l : List (String × ℕ)) (acc raw : Dict String Src), (Dict.keys acc).Nodup → readDataDict B l acc = .ok raw → (Dict.keys raw).Nodup := by
        intro l
        induction l with
        | nil => intro acc raw ha h; cases h; exact ha
        | cons a l ih =>
          obtain ⟨k, N⟩ := a
          intro acc raw ha h
          obtain ⟨d, -, h⟩ := except_bind_ok h
          split at h
          · obtain ⟨S, hS, h⟩ := except_bind_ok h
            exact ih _ raw (Dict.nodup_keys_set _ _ _ ha) h
          · split at h
            · exact ih _ raw (Dict.nodup_keys_set _ _ _ ha) h
            · exact ih _ raw ha h
      exact key l [] raw (by simp [Dict.keys]) h3

/-! ### a file with one network, run to its end -/

namespace Spec

/-- Hidden widths and activations that can be used: enough activations (with LLO at least one), all supported by the solver and differentiable. -/
structure GoodNet (lib : Lib) (llo : Bool) (hidden : List ℕ) (acts : List ActivationType) : Prop where
  enough : hidden.length ≤ acts.length
  some : llo = true → acts ≠ []
  supported : ∀ a ∈ acts, ∃ x, activationFcn a = .some x ∧ supportsAct lib x = true ∧ x ≠ .relu

/-- Activations whose value at 0 is 0. -/
def Vanishing (acts : List ActivationType) : Prop :=
  ∀ a ∈ acts, a ≠ .SIGMOID ∧ a ≠ .SOFTPLUS ∧ a ≠ .EVEN_POLY_4 ∧ a ≠ .EVEN_POLY_6 ∧ a ≠ .EVEN_POLY_8 ∧ a ≠ .EVEN_POLY_10

/-- Every data source gives at least one sample. -/
def DrawsSome (fl : ℝ → ℚ) (g : ℕ → Rng) (data : Dict String Src) : Prop := ∀ S, initData fl g data = .ok S → ∀ l p, Dict.get? S l = some p → p ≠ []

end Spec

theorem newNet_arch {lib : Lib} {n : ℕ} {hidden : List ℕ} {acts : List ActivationType} {llo : Bool} (h : GoodNet lib llo hidden acts) (bias : Bool)
    (wt : ℕ → ℕ → ℕ → ℚ) (bs : ℕ → ℕ → ℚ) : ∃ net, newNet n hidden acts llo bias wt bs = .ok net ∧ Arch lib n net ∧
      (bias = false → Vanishing acts → ZeroNet net) := by
  obtain ⟨net, h1, h2, -, h4, h5⟩ := C76_initial_network n hidden acts llo bias wt bs h.enough (fun a ha e => by
    obtain ⟨x, hx, -⟩ := h.supported a ha
    rw [e] at hx; cases hx) h.some
  have hact : ∀ x ∈ net.acts, ∃ a ∈ acts, activationFcn a = some x := by
    intro x hx
    have : some x ∈ net.acts.map some := List.mem_map_of_mem hx
    rw [← h5] at this
    obtain ⟨a, ha, e⟩ := List.mem_map.1 this
    exact ⟨a, ha, e⟩
  refine ⟨net, h1, ⟨⟨h2, fun x hx => ?_⟩, fun x hx => ?_⟩, fun hb hz => ⟨fun l hl => ?_, fun x hx => ?_⟩⟩
  · obtain ⟨a, ha, e⟩ := hact x (List.mem_of_mem_take hx)
    obtain ⟨y, hy, hs, -⟩ := h.supported a ha
    rw [e] at hy; cases hy; exact hs
  · obtain ⟨a, ha, e⟩ := hact x hx
    obtain ⟨y, hy, -, hr⟩ := h.supported a ha
    rw [e] at hy; cases hy; exact hr
  · have := h4 l hl
    rw [hb] at this
    simpa using this
  · obtain ⟨a, ha, e⟩ := hact x hx
    obtain ⟨z1, z2, z3, z4, z5, z6⟩ := hz a ha
    cases a <;> simp only [activationFcn, Option.some.injEq, reduceCtorEq] at e <;> first | exact absurd rfl z1 | exact absurd rfl z2 | exact absurd rfl z3 | exact absurd rfl z4 | exact absurd rfl z5 | exact absurd rfl z6 | skip
    all_goals (subst e; exact ⟨(by intro h; cases h), (by intro h; cases h), (by intro k h; cases h)⟩)

theorem afterSteps_shape {K : Type} {step : ℕ → Net × K → Net × K} (h : ∀ t θ, SameShape θ.1 (step t θ).1) {Q : Net → Prop} (hQ : ∀ {a b}, SameShape a b → Q a → Q b)
    (θ : Net × K) (h0 : Q θ.1) : ∀ m, Q (afterSteps step m θ).1 := by
  intro m
  induction m with
  | zero => exact h0
  | succ m ih => exact hQ (h m (afterSteps step m θ)) ih

variable {R : Type}

/-- A run started from a file for a certificate with one network: the texts describe the vector field `F` and sets, the file is accepted, the solver is sound and
gives values for the variables when it answers "sat", numeric and symbolic dynamics have one entry per variable, the optimiser changes weights only, for RSWS the search
for the level of the goal ends. -/
structure FileRun (c : ConfigText) (r : Ready) (F : Pt c.nVars → Pt c.nVars) (w : World R Unit (Net × ℚ)) (T : Trainer Unit) (hidden : List ℕ)
    (acts : List ActivationType) : Prop where
  lib : c.lib = .z3 ∨ c.lib = .dreal
  domains : DomainsDescribed c
  system : SystemText c.lib.funcs c.nVars c.system F
  accepted : readConfig c = .ok r
  iters : 0 ≤ c.maxIters
  sound : SoundWorld r.cfg w
  dynamics : ∀ k, w.dynamics k = r.f
  fair : FairWorld w c.nVars
  stay : c.cert = .RSWS → ∀ i V Vdot, ∃ k β, BetaRun (stayCheckFor w.backend (w.stayOracle i) r.cfg V Vdot) betaInit k β
  shape : ∀ i t θ, SameShape θ.1 (T.step i t θ).1
  net : GoodNet c.lib c.llo hidden acts

theorem soundWorld_estimate {c : SynthCfg} {w : World R Unit (Net × ℚ)} (h : SoundWorld c w) (g g' : Rng) : SoundWorld c (w.withEstimate g g' c) := by
  cases h with
  | smt w h1 h2 h3 => exact .smt _ h1 h2 h3
  | dreal w check stayCheck h1 h2 h3 h4 h5 h6 h7 h8 h9 h10 => exact .dreal _ check stayCheck h1 h2 h3 h4 h5 h6 h7 h8 h9 h10

section
variable {c : ConfigText} {r : Ready} {F : Pt c.nVars → Pt c.nVars} {w : World R Unit (Net × ℚ)} {T : Trainer Unit} {hidden : List ℕ} {acts : List ActivationType}

theorem ready_cfg (h : readConfig c = .ok r) : r.cfg = ⟨c.lib, c.nVars, c.cert, r.cfg.domains, c.llo, c.rounding, c.quad, c.maxIters⟩ := by
  obtain ⟨D, d, -, -, -, h⟩ := readSets_inv (readConfig_inv h).2
  exact h

/-- The guarantees of C56 hold for the modelled training: its runs are runs of a learner that only returns networks of the given architecture. -/
theorem fileRun_configRun (h : FileRun c r F w T hidden acts) (g g' : Rng) (discrete : Bool) {net : Net} (hnet : Arch c.lib c.nVars net) {b0 : ℚ} {S out}
    (hs : Solves r.cfg.loop (singleComponents (w.withEstimate g g' r.cfg) r.cfg discrete (trainedLearn T r.cfg discrete w.dynNum)) (net, b0) () S out) :
    (∃ learn, ConfigRun c r F (w.withEstimate g g' r.cfg) learn ∧
      Solves r.cfg.loop (singleComponents (w.withEstimate g g' r.cfg) r.cfg discrete learn) (net, b0) () S out) ∧ (ZeroNet net → ZeroNet out.net.1) := by
  have step : ∀ {Q : Net → Prop}, (∀ {a b}, SameShape a b → Q a → Q b) → ∀ st n k, Q st.net.1 → trainedLearn T r.cfg discrete w.dynNum st = .ok (n, k) → Q n.1 := by
    intro Q hQ st n k h0 hl
    obtain ⟨m, hm⟩ := trained_after (w := w) st n k hl
    have := afterSteps_shape (h.shape st.iters) hQ (st.net.1, st.ctrl) h0 m
    rw [← hm] at this
    exact this
  have hA : ∀ {a b}, SameShape a b → Arch c.lib c.nVars a → Arch c.lib c.nVars b := fun hab ha => ⟨sameShape_usable hab ha.1, sameShape_smooth hab ha.2⟩
  refine ⟨⟨guardLearn (fun n : Net × ℚ => Arch c.lib c.nVars n.1) (trainedLearn T r.cfg discrete w.dynNum), ⟨h.lib, h.domains, h.system, h.accepted,
    soundWorld_estimate h.sound g g', h.dynamics, fun st n k hl => ?_⟩, ?_⟩, fun hz => ?_⟩
  · unfold guardLearn at hl
    split_ifs at hl with hq
    have := step hA st n k hq hl
    exact ⟨this.1.1.input, this.2⟩
  · exact (solves_guard (C := singleComponents (w.withEstimate g g' r.cfg) r.cfg discrete (trainedLearn T r.cfg discrete w.dynNum))
      (Q := fun n : Net × ℚ => Arch c.lib c.nVars n.1) (fun st n k => step hA st n k) hnet hs).1
  · exact (solves_guard (C := singleComponents (w.withEstimate g g' r.cfg) r.cfg discrete (trainedLearn T r.cfg discrete w.dynNum))
      (Q := fun n : Net × ℚ => ZeroNet n.1) (fun st n k => step sameShape_zero st n k) hz hs).2

/-- **C76 (termination).** For every accepted file of a certificate with one network, every choice of random numbers, sound solver and optimiser that changes
weights only: the network is constructed, the data are drawn, and the run either returns after at most CEGIS_MAX_ITERS + 1 passes, or (Lyapunov only) raises because a
training sample has derivative exactly 0. -/
theorem C76_file_run_total (h : FileRun c r F w T hidden acts) (hct : SingleCert c.cert) (discrete : Bool) (hrnd : discrete = true → c.rounding ≠ 0) (fl : ℝ → ℚ)
    (gs : ℕ → Rng) (g g' : Rng) (wt : ℕ → ℕ → ℕ → ℚ) (bs : ℕ → ℕ → ℚ) (hdraw : DrawsSome fl gs r.data) :
    ∃ net S, newNet c.nVars hidden acts c.llo (certBias c.cert) wt bs = .ok net ∧ initData fl gs r.data = .ok S ∧
      ((∃ out, Solves r.cfg.loop (singleComponents (w.withEstimate g g' r.cfg) r.cfg discrete (trainedLearn T r.cfg discrete w.dynNum)) (net, 0) () S out ∧
        (out.iters : ℤ) ≤ c.maxIters + 1) ∨
      (c.cert = .LYAPUNOV ∧ ∃ k st, Steps r.cfg.loop (singleComponents (w.withEstimate g g' r.cfg) r.cfg discrete (trainedLearn T r.cfg discrete w.dynNum))
        (initState (singleComponents (w.withEstimate g g' r.cfg) r.cfg discrete (trainedLearn T r.cfg discrete w.dynNum)) (net, 0) () S) k st ∧
        MeetsZeroDerivative T r.cfg discrete w.dynNum st)) := by
  obtain ⟨net, hn1, hn2, -⟩ := newNet_arch (n := c.nVars) h.net (certBias c.cert) wt bs
  obtain ⟨S, hS, hk, hw, -⟩ := C76_initial_data c r h.domains h.accepted fl gs
  refine ⟨net, S, hn1, hS, ?_⟩
  have hset := (readConfig_inv h.accepted).2
  obtain ⟨d, -, -, hcheck⟩ := readSets_check hset
  have hplain := accepted_plain h.domains hset
  have hus := accepted_usable h.domains hset
  have hlab := accepted_sets hct.2.2 hset
  have hcfg := ready_cfg h.accepted
  generalize r.cfg.domains = doms at *
  have hst := h.stay
  rw [hcfg] at hst ⊢
  rw [← hk] at hcheck
  exact C75_run_total_checked_single w ⟨c.lib, c.nVars, c.cert, doms, c.llo, c.rounding, c.quad, c.maxIters⟩ discrete T g g' h.lib hct h.iters hus hlab
    (fun _ P hP => plain_lyapunov (hplain.1 _ (Dict.get?_eq_some_mem hP))) hrnd h.fair hst (fun i t θ hu => sameShape_usable (h.shape i t θ) hu) (net, 0) () S hn2.1
    (fun l p hp => ⟨hdraw S hS l p hp, hw l p hp⟩) (Dict.keys d) hcheck

/-- What holds for a run to the end: with the networks, the data and the returned state of C76_file_run_total, the guarantee `G` of a successful run. -/
theorem fileRun_total_with (h : FileRun c r F w T hidden acts) (hct : SingleCert c.cert) (hl : c.cert ≠ .LYAPUNOV) (discrete : Bool)
    (hrnd : discrete = true → c.rounding ≠ 0) (fl : ℝ → ℚ) (gs : ℕ → Rng) (g g' : Rng) (wt : ℕ → ℕ → ℕ → ℚ) (bs : ℕ → ℕ → ℚ) (hdraw : DrawsSome fl gs r.data)
    {G : LoopState (Net × ℚ) Unit (List ℚ) Term → Prop}
    (hG : ∀ learn net S out, ConfigRun c r F (w.withEstimate g g' r.cfg) learn →
      Solves r.cfg.loop (singleComponents (w.withEstimate g g' r.cfg) r.cfg discrete learn) net () S out → out.found = true → G out) :
    ∃ net S out, newNet c.nVars hidden acts c.llo (certBias c.cert) wt bs = .ok net ∧ initData fl gs r.data = .ok S ∧
      Solves r.cfg.loop (singleComponents (w.withEstimate g g' r.cfg) r.cfg discrete (trainedLearn T r.cfg discrete w.dynNum)) (net, 0) () S out ∧
      (out.iters : ℤ) ≤ c.maxIters + 1 ∧ (out.found = true → G out) := by
  obtain ⟨net, S, h1, h2, h3⟩ := C76_file_run_total h hct discrete hrnd fl gs g g' wt bs hdraw
  rcases h3 with ⟨out, h3, h4⟩ | ⟨e, -⟩
  · obtain ⟨net', h1', h5, -⟩ := newNet_arch (n := c.nVars) h.net (certBias c.cert) wt bs
    rw [h1] at h1'; cases h1'
    obtain ⟨⟨learn, hr, hs⟩, -⟩ := fileRun_configRun h g g' discrete h5 h3
    exact ⟨net, S, out, h1, h2, h3, h4, hG learn _ _ out hr hs⟩
  · exact absurd e hl

/-- **C76, safety.** For every accepted Barrier or BarrierAlt file, every choice of random numbers, sound solver and optimiser that changes weights only, the run
returns after at most CEGIS_MAX_ITERS + 1 passes; if it reports success, no trajectory of the written vector field that starts in the written
initial set and stays in the written domain reaches the written unsafe set. -/
theorem C76_file_safety (h : FileRun c r F w T hidden acts) (hc : c.cert = .BARRIER ∨ c.cert = .BARRIERALT) (fl : ℝ → ℚ)
    (gs : ℕ → Rng) (g g' : Rng) (wt : ℕ → ℕ → ℕ → ℚ) (bs : ℕ → ℕ → ℚ) (hdraw : DrawsSome fl gs r.data)
    (I D U : Set (Pt c.nVars)) (hI : Configures c.nVars c.domains "XI" I) (hD : Configures c.nVars c.domains "XD" D) (hU : Configures c.nVars c.domains "XU" U) :
    ∃ net S out, newNet c.nVars hidden acts c.llo (certBias c.cert) wt bs = .ok net ∧ initData fl gs r.data = .ok S ∧
      Solves r.cfg.loop (singleComponents (w.withEstimate g g' r.cfg) r.cfg false (trainedLearn T r.cfg false w.dynNum)) (net, 0) () S out ∧
      (out.iters : ℤ) ≤ c.maxIters + 1 ∧
      (out.found = true → ∀ (T : ℝ) (ξ : ℝ → Pt c.nVars), Trajectory F T ξ → ξ 0 ∈ I → (∀ t ∈ Icc 0 T, ξ t ∈ D) → ∀ t ∈ Icc 0 T, ξ t ∉ U) :=
  fileRun_total_with h (by rcases hc with e | e <;> rw [e] <;> refine ⟨?_, ?_, ?_⟩ <;> intro h <;> cases h) (by rcases hc with e | e <;> rw [e] <;> decide)
    false (fun h => by cases h) fl gs g g' wt bs hdraw
    (fun learn net S out hr hs hf T' ξ a b d => C56_config_safety c r F _ learn hr hc I D U hI hD hU _ _ _ out hs hf T' ξ a b d)

/-- **C76, discrete safety.** The same for BarrierAlt in discrete time with a non-zero rounding. -/
theorem C76_file_safety_dt (h : FileRun c r F w T hidden acts) (hc : c.cert = .BARRIERALT) (hq : c.quad = false) (hrnd : c.rounding ≠ 0) (fl : ℝ → ℚ)
    (gs : ℕ → Rng) (g g' : Rng) (wt : ℕ → ℕ → ℕ → ℚ) (bs : ℕ → ℕ → ℚ) (hdraw : DrawsSome fl gs r.data)
    (I D U : Set (Pt c.nVars)) (hI : Configures c.nVars c.domains "XI" I) (hD : Configures c.nVars c.domains "XD" D) (hU : Configures c.nVars c.domains "XU" U) :
    ∃ net S out, newNet c.nVars hidden acts c.llo (certBias c.cert) wt bs = .ok net ∧ initData fl gs r.data = .ok S ∧
      Solves r.cfg.loop (singleComponents (w.withEstimate g g' r.cfg) r.cfg true (trainedLearn T r.cfg true w.dynNum)) (net, 0) () S out ∧
      (out.iters : ℤ) ≤ c.maxIters + 1 ∧
      (out.found = true → ∀ x : ℕ → Pt c.nVars, IsRun F x → x 0 ∈ I → ∀ k, (∀ j ≤ k, x j ∈ D) → x k ∉ U) :=
  fileRun_total_with h (by rw [hc]; refine ⟨?_, ?_, ?_⟩ <;> intro h <;> cases h) (by rw [hc]; decide) true (fun _ => hrnd) fl gs g g' wt bs hdraw
    (fun learn net S out hr hs hf x a b k d => C56_config_safety_dt c r F _ learn hr hc hq I D U hI hD hU _ _ _ out hs hf x a b k d)

/-- **C76, reach while staying.** For every accepted file of a reach certificate the run returns; if it reports success there is a time bound within which every
trajectory of the written vector field from the written initial set reaches the written goal, in the written safe set until then. -/
theorem C76_file_reach (h : FileRun c r F w T hidden acts) (hc : c.cert = .RWS ∨ c.cert = .RWA ∨ c.cert = .RSWS ∨ c.cert = .RSWA) (fl : ℝ → ℚ)
    (gs : ℕ → Rng) (g g' : Rng) (wt : ℕ → ℕ → ℕ → ℚ) (bs : ℕ → ℕ → ℚ) (hdraw : DrawsSome fl gs r.data)
    (I S D G : Set (Pt c.nVars)) (hI : Configures c.nVars c.domains "XI" I) (hS : Configures c.nVars c.domains "XS" S)
    (hD : Configures c.nVars c.domains "XD" D) (hG : Configures c.nVars c.domains "XG" G) (h1 : I ⊆ S) (h2 : I ⊆ D) (h3 : frontier S ⊆ D) :
    ∃ net S0 out, newNet c.nVars hidden acts c.llo (certBias c.cert) wt bs = .ok net ∧ initData fl gs r.data = .ok S0 ∧
      Solves r.cfg.loop (singleComponents (w.withEstimate g g' r.cfg) r.cfg false (trainedLearn T r.cfg false w.dynNum)) (net, 0) () S0 out ∧
      (out.iters : ℤ) ≤ c.maxIters + 1 ∧
      (out.found = true → ∃ τ : ℝ, ∀ (T : ℝ) (ξ : ℝ → Pt c.nVars), Trajectory F T ξ → τ ≤ T → ξ 0 ∈ I →
        (∃ t ∈ Icc 0 τ, ξ t ∈ G) ∧ ∀ t ∈ Icc 0 T, ξ t ∈ S ∨ ∃ r ∈ Icc 0 t, ξ r ∈ G) :=
  fileRun_total_with h (by rcases hc with e | e | e | e <;> rw [e] <;> refine ⟨?_, ?_, ?_⟩ <;> intro h <;> cases h)
    (by rcases hc with e | e | e | e <;> rw [e] <;> decide) false (fun h => by cases h) fl gs g g' wt bs hdraw
    (fun learn net S0 out hr hs hf => C56_config_reach c r F _ learn hr hc I S D G hI hS hD hG h1 h2 h3 _ _ _ out hs hf)

/-- **C76, reach and stay.** For every accepted RSWS file the run returns (if the search for the level ends); if it reports success there is a time bound by which every
trajectory from the initial set is in the goal for ever, always in the safe set. -/
theorem C76_file_reach_stay (h : FileRun c r F w T hidden acts) (hc : c.cert = .RSWS) (fl : ℝ → ℚ)
    (gs : ℕ → Rng) (g g' : Rng) (wt : ℕ → ℕ → ℕ → ℚ) (bs : ℕ → ℕ → ℚ) (hdraw : DrawsSome fl gs r.data)
    (I S D G : Set (Pt c.nVars)) (hI : Configures c.nVars c.domains "XI" I) (hS : Configures c.nVars c.domains "XS" S)
    (hD : Configures c.nVars c.domains "XD" D) (hG : Configures c.nVars c.domains "XG" G) (h1 : I ⊆ S) (h2 : I ⊆ D) (h3 : frontier S ⊆ D) (h4 : G ⊆ S) :
    ∃ net S0 out, newNet c.nVars hidden acts c.llo (certBias c.cert) wt bs = .ok net ∧ initData fl gs r.data = .ok S0 ∧
      Solves r.cfg.loop (singleComponents (w.withEstimate g g' r.cfg) r.cfg false (trainedLearn T r.cfg false w.dynNum)) (net, 0) () S0 out ∧
      (out.iters : ℤ) ≤ c.maxIters + 1 ∧
      (out.found = true → ∃ τ : ℝ, ∀ (T : ℝ) (ξ : ℝ → Pt c.nVars), Trajectory F T ξ → τ ≤ T → ξ 0 ∈ I →
        (∃ t₁ ∈ Icc 0 τ, ∀ t ∈ Icc t₁ T, ξ t ∈ G) ∧ ∀ t ∈ Icc 0 T, ξ t ∈ S) :=
  fileRun_total_with h (by rw [hc]; refine ⟨?_, ?_, ?_⟩ <;> intro h <;> cases h) (by rw [hc]; decide) false (fun h => by cases h) fl gs g g' wt bs hdraw
    (fun learn net S0 out hr hs hf => C56_config_reach_stay c r F _ learn hr hc I S D G hI hS hD hG h1 h2 h3 h4 _ _ _ out hs hf)

/-- **C76, region of attraction.** For every accepted ROA file the run returns; if it reports success the written initial set lies in the sublevel set of the certificate at
1.1 β, and a trajectory from there, while further than 0.01 from the origin, stays in that sublevel set if it starts strictly inside. -/
theorem C76_file_roa (h : FileRun c r F w T hidden acts) (hc : c.cert = .ROA) (fl : ℝ → ℚ)
    (gs : ℕ → Rng) (g g' : Rng) (wt : ℕ → ℕ → ℕ → ℚ) (bs : ℕ → ℕ → ℚ) (hdraw : DrawsSome fl gs r.data)
    (I : Set (Pt c.nVars)) (hI : Configures c.nVars c.domains "XI" I) :
    ∃ net S out, newNet c.nVars hidden acts c.llo (certBias c.cert) wt bs = .ok net ∧ initData fl gs r.data = .ok S ∧
      Solves r.cfg.loop (singleComponents (w.withEstimate g g' r.cfg) r.cfg false (trainedLearn T r.cfg false w.dynNum)) (net, 0) () S out ∧
      (out.iters : ℤ) ≤ c.maxIters + 1 ∧
      (out.found = true → (∀ p ∈ I, certValue c.rounding c.quad out.net.1 p ≤ (out.net.2 : ℝ) * (11/10)) ∧
        ∀ (T : ℝ) (ξ : ℝ → Pt c.nVars), Trajectory F T ξ → 0 ≤ T → ξ 0 ∈ I → (∀ t ∈ Icc 0 T, (1/100)^2 < normSq (ξ t)) →
          (c.llo = true ∨ certValue c.rounding c.quad out.net.1 (ξ 0) < (out.net.2 : ℝ) * (11/10)) →
            ∀ t ∈ Icc 0 T, certValue c.rounding c.quad out.net.1 (ξ t) ≤ (out.net.2 : ℝ) * (11/10)) :=
  fileRun_total_with h (by rw [hc]; refine ⟨?_, ?_, ?_⟩ <;> intro h <;> cases h) (by rw [hc]; decide) false (fun h => by cases h) fl gs g g' wt bs hdraw
    (fun learn net S0 out hr hs hf => by
      obtain ⟨a, b⟩ := C56_config_roa c r F _ learn hr hc I hI _ _ _ out hs hf
      exact ⟨a, fun T' ξ x1 x2 x3 x4 => (b T' ξ x1 x2 x3 x4).1⟩)

/-- **C76, stability.** For every accepted Lyapunov file without LLO whose activations vanish at 0 and whose domain is a neighbourhood of the origin, with a continuous
vector field: the run returns after at most CEGIS_MAX_ITERS + 1 passes or raises because a training sample has derivative exactly 0, and if it reports success the origin
is asymptotically stable for the written vector field. -/
theorem C76_file_stability (h : FileRun c r F w T hidden acts) (hc : c.cert = .LYAPUNOV) (hllo : c.llo = false)
    (hz : Vanishing acts) (fl : ℝ → ℚ)
    (gs : ℕ → Rng) (g g' : Rng) (wt : ℕ → ℕ → ℕ → ℚ) (bs : ℕ → ℕ → ℚ) (hdraw : DrawsSome fl gs r.data)
    (D : Set (Pt c.nVars)) (hD : Configures c.nVars c.domains "XD" D) (hn : D ∈ nhds 0) (hF : Continuous F) :
    ∃ net S, newNet c.nVars hidden acts c.llo (certBias c.cert) wt bs = .ok net ∧ initData fl gs r.data = .ok S ∧
      ((∃ out, Solves r.cfg.loop (singleComponents (w.withEstimate g g' r.cfg) r.cfg false (trainedLearn T r.cfg false w.dynNum)) (net, 0) () S out ∧
        (out.iters : ℤ) ≤ c.maxIters + 1 ∧ (out.found = true → AsympStable F)) ∨
      (∃ k st, Steps r.cfg.loop (singleComponents (w.withEstimate g g' r.cfg) r.cfg false (trainedLearn T r.cfg false w.dynNum))
        (initState (singleComponents (w.withEstimate g g' r.cfg) r.cfg false (trainedLearn T r.cfg false w.dynNum)) (net, 0) () S) k st ∧
        MeetsZeroDerivative T r.cfg false w.dynNum st)) := by
  obtain ⟨net, S, h1, h2, h3⟩ := C76_file_run_total h (by rw [hc]; refine ⟨?_, ?_, ?_⟩ <;> intro h <;> cases h) false (fun h => by cases h) fl gs g g' wt bs hdraw
  refine ⟨net, S, h1, h2, ?_⟩
  rcases h3 with ⟨out, h3, h4⟩ | ⟨-, h3⟩
  · obtain ⟨net', h1', h5, h6⟩ := newNet_arch (n := c.nVars) h.net (certBias c.cert) wt bs
    rw [h1] at h1'; cases h1'
    obtain ⟨⟨learn, hr, hs⟩, hz'⟩ := fileRun_configRun h g g' false h5 h3
    exact Or.inl ⟨out, h3, h4, fun hf => C56_config_stability c r F _ learn hr hc D hD hn hF _ _ _ out hs hf (Or.inl hllo) (Or.inr (hz' (h6 (by rw [hc]; rfl) hz)))⟩
  · exact Or.inr h3

end

/-! ### two networks -/

/-- As `FileRun`, for the certificates with two networks. -/
structure FileRun2 (c : ConfigText) (r : Ready) (F : Pt c.nVars → Pt c.nVars) (w : World R Unit ((Net × ℚ) × Net)) (T : Trainer2 Unit) (hidden hidden2 : List ℕ)
    (acts acts2 : List ActivationType) : Prop where
  lib : c.lib = .z3 ∨ c.lib = .dreal
  domains : DomainsDescribed c
  system : SystemText c.lib.funcs c.nVars c.system F
  accepted : readConfig c = .ok r
  iters : 0 ≤ c.maxIters
  sound : SoundWorld r.cfg w
  dynamics : ∀ k, w.dynamics k = r.f
  fair : FairWorld w c.nVars
  shape : ∀ i t θ, SameShape θ.1.1 (T.step i t θ).1.1 ∧ SameShape θ.1.2 (T.step i t θ).1.2
  net : GoodNet c.lib c.llo hidden acts
  net2 : GoodNet c.lib false hidden2 acts2

/-- Training with two networks returns the networks and the controller after some number of optimiser steps. -/
theorem trained_after2 {K : Type} {T : Trainer2 K} {c : SynthCfg} {dynNum : K → List ℚ → List ℚ} {st : LoopState ((Net × ℚ) × Net) K (List ℚ) (Term × Term)}
    {n : (Net × ℚ) × Net} {k : K} (h : trainedLearn2 T c dynNum st = .ok (n, k)) :
    ∃ m, ((n.1.1, n.2), k) = afterSteps (T.step st.iters) m ((st.net.1.1, st.net.2), st.ctrl) := by
  by_cases hc : c.cert = .RAR
  · obtain ⟨m, -, -, hm, -⟩ := trained_rar hc h
    exact ⟨m, hm⟩
  unfold trainedLearn2 at h
  dsimp only at h
  split at h
  swap; · cases h
  generalize hf : (if T.controlled = true then some (fun θ : (Net × Net) × K => dynNum θ.2) else none) = f at h
  split at h
  · cases hr : safeRoaLearn c.llo T.symmetric (trainValuesV K c.quad) (trainValuesB K c.quad) (fun θ x => trainOut (θ.1.1, θ.2) x) f (T.step st.iters) st.S st.Sdot
      ((st.net.1.1, st.net.2), st.ctrl) with
    | error e => rw [hr] at h; cases h
    | ok v =>
      rw [hr] at h
      obtain ⟨⟨⟨V, B⟩, k'⟩, m, be⟩ := v
      cases h
      unfold safeRoaLearn at hr
      split at hr
      swap; · cases hr
      obtain ⟨⟨θ', m'⟩, h1, hr⟩ := except_bind_ok hr
      obtain ⟨si, -, hr⟩ := except_bind_ok hr
      obtain ⟨be', -, hr⟩ := except_bind_ok hr
      cases hr
      obtain ⟨j', -, h2, h3, -⟩ := trainLoop_spec _ (T.step st.iters) learnLoops 0 () _ 0 _ _ h1
      exact ⟨m, by rw [h3, stepsFrom_zero_eq, h2, Nat.zero_add]⟩
  · exact absurd ‹_› hc
  · cases h

section
variable {c : ConfigText} {r : Ready} {F : Pt c.nVars → Pt c.nVars} {w : World R Unit ((Net × ℚ) × Net)} {T : Trainer2 Unit} {hidden hidden2 : List ℕ}
  {acts acts2 : List ActivationType}

theorem afterSteps_shape2 {K : Type} {step : ℕ → (Net × Net) × K → (Net × Net) × K} (h : ∀ t θ, SameShape θ.1.1 (step t θ).1.1 ∧ SameShape θ.1.2 (step t θ).1.2)
    {Q : Net → Prop} (hQ : ∀ {a b}, SameShape a b → Q a → Q b) (θ : (Net × Net) × K) (h0 : Q θ.1.1 ∧ Q θ.1.2) :
    ∀ m, Q (afterSteps step m θ).1.1 ∧ Q (afterSteps step m θ).1.2 := by
  intro m
  induction m with
  | zero => exact h0
  | succ m ih => exact ⟨hQ (h m (afterSteps step m θ)).1 ih.1, hQ (h m (afterSteps step m θ)).2 ih.2⟩

theorem fileRun2_configRun (h : FileRun2 c r F w T hidden hidden2 acts acts2) {net net2 : Net} (hnet : Arch c.lib c.nVars net) (hnet2 : Arch c.lib c.nVars net2) {b0 : ℚ} {S out}
    (hs : Solves r.cfg.loop (doubleComponents w r.cfg (trainedLearn2 T r.cfg w.dynNum)) ((net, b0), net2) () S out) :
    ∃ learn, ConfigRun2 c r F w learn ∧ Solves r.cfg.loop (doubleComponents w r.cfg learn) ((net, b0), net2) () S out := by
  have hA : ∀ {a b}, SameShape a b → Arch c.lib c.nVars a → Arch c.lib c.nVars b := fun hab ha => ⟨sameShape_usable hab ha.1, sameShape_smooth hab ha.2⟩
  have step : ∀ st n k, (Arch c.lib c.nVars st.net.1.1 ∧ Arch c.lib c.nVars st.net.2) → trainedLearn2 T r.cfg w.dynNum st = .ok (n, k) →
      Arch c.lib c.nVars n.1.1 ∧ Arch c.lib c.nVars n.2 := by
    intro st n k h0 hl
    obtain ⟨m, hm⟩ := trained_after2 hl
    have := afterSteps_shape2 (h.shape st.iters) hA ((st.net.1.1, st.net.2), st.ctrl) h0 m
    rw [← hm] at this
    exact this
  refine ⟨guardLearn (fun n : (Net × ℚ) × Net => Arch c.lib c.nVars n.1.1 ∧ Arch c.lib c.nVars n.2) (trainedLearn2 T r.cfg w.dynNum), ⟨h.lib, h.domains, h.system, h.accepted,
    h.sound, h.dynamics, fun st n k hl => ?_⟩, ?_⟩
  · unfold guardLearn at hl
    split_ifs at hl with hq
    have := step st n k hq hl
    exact ⟨⟨this.1.1.1.input, this.1.2⟩, this.2.1.1.input, this.2.2⟩
  · exact (solves_guard (C := doubleComponents w r.cfg (trainedLearn2 T r.cfg w.dynNum))
      (Q := fun n : (Net × ℚ) × Net => Arch c.lib c.nVars n.1.1 ∧ Arch c.lib c.nVars n.2) (fun st n k => step st n k) ⟨hnet, hnet2⟩ hs).1

/-- A file with two networks, run to its end, and the guarantee of a successful run. -/
theorem fileRun2_total_with (h : FileRun2 c r F w T hidden hidden2 acts acts2) (hct : c.cert = .STABLESAFE ∨ c.cert = .RAR) (fl : ℝ → ℚ)
    (gs : ℕ → Rng) (wt wt2 : ℕ → ℕ → ℕ → ℚ) (bs bs2 : ℕ → ℕ → ℚ) (hdraw : DrawsSome fl gs r.data)
    {G : LoopState ((Net × ℚ) × Net) Unit (List ℚ) (Term × Term) → Prop}
    (hG : ∀ learn net S out, ConfigRun2 c r F w learn → Solves r.cfg.loop (doubleComponents w r.cfg learn) net () S out → out.found = true → G out) :
    ∃ net net2 S out, newNet c.nVars hidden acts c.llo (certBias2 c.cert).1 wt bs = .ok net ∧
      newNet c.nVars hidden2 acts2 false (certBias2 c.cert).2 wt2 bs2 = .ok net2 ∧ initData fl gs r.data = .ok S ∧
      Solves r.cfg.loop (doubleComponents w r.cfg (trainedLearn2 T r.cfg w.dynNum)) ((net, 0), net2) () S out ∧
      (out.iters : ℤ) ≤ c.maxIters + 1 ∧ (out.found = true → G out) := by
  obtain ⟨net, hn1, hn2, -⟩ := newNet_arch (n := c.nVars) h.net (certBias2 c.cert).1 wt bs
  obtain ⟨net2, hm1, hm2, -⟩ := newNet_arch (n := c.nVars) h.net2 (certBias2 c.cert).2 wt2 bs2
  obtain ⟨S, hS, hk, hw, -⟩ := C76_initial_data c r h.domains h.accepted fl gs
  have hset := (readConfig_inv h.accepted).2
  obtain ⟨d, -, -, hcheck⟩ := readSets_check hset
  have hplain := accepted_plain h.domains hset
  have hus := accepted_usable h.domains hset
  have hlab := accepted_sets (by rcases hct with e | e <;> rw [e] <;> decide) hset
  have hcfg := ready_cfg h.accepted
  have hnd : (Dict.keys S).Nodup := by
    rw [hk]
    obtain ⟨D, d, -, h3, -⟩ := readSets_inv hset
    exact parseConfig_nodup h3
  obtain ⟨out, h3, h4⟩ : ∃ out, Solves r.cfg.loop (doubleComponents w r.cfg (trainedLearn2 T r.cfg w.dynNum)) ((net, 0), net2) () S out ∧
      (out.iters : ℤ) ≤ c.maxIters + 1 := by
    generalize r.cfg.domains = doms at *
    rw [hcfg]
    rw [← hk] at hcheck
    exact C75_run_total_checked w ⟨c.lib, c.nVars, c.cert, doms, c.llo, c.rounding, c.quad, c.maxIters⟩ T h.lib hct h.iters hus hlab h.fair
      (fun i t θ hu => ⟨sameShape_usable (h.shape i t θ).1 hu.1, sameShape_usable (h.shape i t θ).2 hu.2⟩) ((net, 0), net2) () S ⟨hn2.1, hm2.1⟩ hnd
      (fun l p hp => ⟨hdraw S hS l p hp, hw l p hp⟩) (Dict.keys d) hcheck
  obtain ⟨learn, hr, hs⟩ := fileRun2_configRun h hn2 hm2 h3
  exact ⟨net, net2, S, out, hn1, hm1, hS, h3, h4, hG learn _ _ out hr hs⟩

/-- **C76, stable while safe.** For every accepted StableSafe file the run returns after at most CEGIS_MAX_ITERS + 1 passes; if it reports success, no trajectory of the
written vector field from the written initial set, inside the written domain, reaches the written unsafe set. -/
theorem C76_file_stable_safe (h : FileRun2 c r F w T hidden hidden2 acts acts2) (hc : c.cert = .STABLESAFE) (fl : ℝ → ℚ)
    (gs : ℕ → Rng) (wt wt2 : ℕ → ℕ → ℕ → ℚ) (bs bs2 : ℕ → ℕ → ℚ) (hdraw : DrawsSome fl gs r.data)
    (I D U : Set (Pt c.nVars)) (hI : Configures c.nVars c.domains "XI" I) (hD : Configures c.nVars c.domains "XD" D) (hU : Configures c.nVars c.domains "XU" U) :
    ∃ net net2 S out, newNet c.nVars hidden acts c.llo (certBias2 c.cert).1 wt bs = .ok net ∧
      newNet c.nVars hidden2 acts2 false (certBias2 c.cert).2 wt2 bs2 = .ok net2 ∧ initData fl gs r.data = .ok S ∧
      Solves r.cfg.loop (doubleComponents w r.cfg (trainedLearn2 T r.cfg w.dynNum)) ((net, 0), net2) () S out ∧ (out.iters : ℤ) ≤ c.maxIters + 1 ∧
      (out.found = true → ∀ (T : ℝ) (ξ : ℝ → Pt c.nVars), Trajectory F T ξ → ξ 0 ∈ I → (∀ t ∈ Icc 0 T, ξ t ∈ D) → ∀ t ∈ Icc 0 T, ξ t ∉ U) :=
  fileRun2_total_with h (Or.inl hc) fl gs wt wt2 bs bs2 hdraw
    (fun learn net S out hr hs hf T' ξ a b d => C56_config_stable_safe c r F w learn hr hc I D U hI hD hU _ _ _ out hs hf T' ξ a b d)

/-- **C76, reach, avoid, remain.** For every accepted RAR file the run returns after at most CEGIS_MAX_ITERS + 1 passes; if it reports success there is a time bound within
which every trajectory from the initial set, inside the domain, reaches the goal, in the safe set until then, and once in the goal it stays in the
final set. -/
theorem C76_file_rar (h : FileRun2 c r F w T hidden hidden2 acts acts2) (hc : c.cert = .RAR) (fl : ℝ → ℚ)
    (gs : ℕ → Rng) (wt wt2 : ℕ → ℕ → ℕ → ℚ) (bs bs2 : ℕ → ℕ → ℚ) (hdraw : DrawsSome fl gs r.data)
    (I S D G P : Set (Pt c.nVars)) (hI : Configures c.nVars c.domains "XI" I)
    (hS : Configures c.nVars c.domains "XS" S) (hD : Configures c.nVars c.domains "XD" D) (hG : Configures c.nVars c.domains "XG" G)
    (hP : Configures c.nVars c.domains "XF" P) (h1 : I ⊆ S) (h2 : I ⊆ D) (h3 : frontier S ⊆ D) :
    ∃ net net2 S0 out, newNet c.nVars hidden acts c.llo (certBias2 c.cert).1 wt bs = .ok net ∧
      newNet c.nVars hidden2 acts2 false (certBias2 c.cert).2 wt2 bs2 = .ok net2 ∧ initData fl gs r.data = .ok S0 ∧
      Solves r.cfg.loop (doubleComponents w r.cfg (trainedLearn2 T r.cfg w.dynNum)) ((net, 0), net2) () S0 out ∧ (out.iters : ℤ) ≤ c.maxIters + 1 ∧
      (out.found = true → ∃ τ : ℝ, ∀ (T : ℝ) (ξ : ℝ → Pt c.nVars), Trajectory F T ξ → τ ≤ T → ξ 0 ∈ I → (∀ t ∈ Icc 0 T, ξ t ∈ D) →
        (∃ t ∈ Icc 0 τ, ξ t ∈ G) ∧ (∀ t ∈ Icc 0 T, ξ t ∈ S ∨ ∃ r ∈ Icc 0 t, ξ r ∈ G) ∧ ∀ r ∈ Icc 0 T, ξ r ∈ G → ∀ t ∈ Icc r T, ξ t ∈ P) :=
  fileRun2_total_with h (Or.inr hc) fl gs wt wt2 bs bs2 hdraw
    (fun learn net S0 out hr hs hf => C56_config_rar c r F w learn hr hc I S D G P hI hS hD hG hP h1 h2 h3 _ _ _ out hs hf)

end

/-! ### the hypotheses -/

/-- Sources that give exactly the number of samples asked for, all at least 1, give some. -/
theorem drawsSome_of_counts {n : ℕ} (fl : ℝ → ℚ) (g : ℕ → Rng) {data : Dict String Src} (hp : ∀ e ∈ data, PlainSource n e.2)
    (h : ∀ l src, Dict.get? data l = some src → ∃ N, exactCount src = some N ∧ 0 < N) : DrawsSome fl g data := by
  obtain ⟨S, h1, h2, -, h4⟩ := initData_total fl data g hp
  intro S' hS l p hl
  rw [h1] at hS; cases hS
  have hk : l ∈ Dict.keys data := by
    rw [← h2]; exact Dict.get?_isSome_iff.1 (by rw [hl]; rfl)
  obtain ⟨src, hs⟩ := Option.isSome_iff_exists.1 (Dict.get?_isSome_iff.2 hk)
  obtain ⟨N, hN, hpos⟩ := h l src hs
  obtain ⟨rows, hr, hlen⟩ := h4 l N ⟨src, hs, hN⟩
  rw [hl] at hr; cases hr
  intro e
  rw [e] at hlen
  simp at hlen; omega

theorem sameShape_refl (net : Net) : SameShape net net := ⟨rfl, rfl, List.forall₂_same.2 fun _ _ => ⟨rfl, rfl⟩⟩

theorem update_shape {l l' : Layer} (h : SameDims l l') :
    (l.update l').weight.map List.length = l.weight.map List.length ∧ (l.update l').bias.map List.length = l.bias.map List.length := by
  refine ⟨(update_dims h).1, ?_⟩
  unfold Layer.update
  cases hl : l.bias with
  | none => rfl
  | some b =>
    obtain ⟨b', h1, h2⟩ := h.2 b hl
    simp [h1, h2]

/-- **C76 (optimiser steps).** A step of the optimiser on the registered parameters, with or without the projection of the output layer, changes weights only: the
hypothesis on training of the theorems above. -/
theorem C76_step_shape {llo ta : Bool} {upd : ℕ → List Layer → List Layer} (hu : ∀ t, KeepsDims (upd t)) (t : ℕ) (net : Net) :
    SameShape net (lyapNetStep llo ta upd t net) := by
  have key : ∀ {ls ls' : List Layer}, List.Forall₂ SameDims ls ls' → List.Forall₂ (fun l l' : Layer => l'.weight.map List.length = l.weight.map List.length ∧
      l'.bias.map List.length = l.bias.map List.length) ls (List.zipWith Layer.update ls ls') := by
    intro ls ls' h
    induction h with
    | nil => exact .nil
    | cons h1 _ ih => exact .cons (update_shape h1) ih
  have key' : ∀ {ls ls' : List Layer}, List.Forall₂ SameDims ls ls' → List.Forall₂ (fun l l' : Layer => l'.weight.map List.length = l.weight.map List.length ∧
      l'.bias.map List.length = l.bias.map List.length) ls (List.zipWith Layer.update ls.dropLast ls' ++ ls.getLast?.toList) := by
    intro ls ls' h
    induction h with
    | nil => exact .nil
    | @cons l l' ls ls' h1 h2 ih =>
      cases ls with
      | nil => exact .cons ⟨rfl, rfl⟩ .nil
      | cons x xs =>
        rw [List.dropLast_cons_of_ne_nil (by simp), List.getLast?_cons_of_ne_nil (by simp)]
        exact .cons (update_shape h1) ih
  have h1 : SameShape net (optimStep (!(llo && !ta)) (upd t) net) := by
    refine ⟨rfl, rfl, ?_⟩
    unfold optimStep
    dsimp only
    split
    · exact key (hu t net.layers)
    · exact key' (hu t net.layers)
  unfold lyapNetStep
  cases ta with
  | false => exact h1
  | true =>
    obtain ⟨a, b, d⟩ := h1
    refine ⟨a, b, ?_⟩
    have pos : ∀ ls : List Layer, List.Forall₂ (fun l l' : Layer => l'.weight.map List.length = l.weight.map List.length ∧
        l'.bias.map List.length = l.bias.map List.length) ls (makeFinalPositive ls) := by
      intro ls
      induction ls with
      | nil => exact .nil
      | cons l ls ih =>
        cases ls with
        | nil => exact .cons ⟨by simp [Function.comp_def], rfl⟩ .nil
        | cons x xs => exact .cons ⟨rfl, rfl⟩ ih
    have tr : ∀ {l1 l2 l3 : List Layer}, List.Forall₂ (fun l l' : Layer => l'.weight.map List.length = l.weight.map List.length ∧
        l'.bias.map List.length = l.bias.map List.length) l1 l2 → List.Forall₂ (fun l l' : Layer => l'.weight.map List.length = l.weight.map List.length ∧
        l'.bias.map List.length = l.bias.map List.length) l2 l3 → List.Forall₂ (fun l l' : Layer => l'.weight.map List.length = l.weight.map List.length ∧
        l'.bias.map List.length = l.bias.map List.length) l1 l3 := by
      intro l1 l2 l3 h
      induction h generalizing l3 with
      | nil => intro h; exact h
      | cons h _ ih =>
        intro h'
        cases h' with
        | cons h1 h2 => exact .cons ⟨h1.1.trans h.1, h1.2.trans h.2⟩ (ih h2)
    exact tr d (pos _)

namespace Spec

/-- The counts of `N_DATA` are positive. -/
def PositiveCounts : Option NData → Prop
  | none => True
  | some (.int N) => 0 < N
  | some (.dict l) => ∀ e ∈ l, 0 < e.2

end Spec

theorem sets_draw_some (c : ConfigText) (hd : DomainsDescribed c) {cfg : SynthCfg} {data0 : Dict String Src} (hset : readSets c = .ok (cfg, data0))
    (hc : c.cert = .LYAPUNOV ∨ c.cert = .ROA ∨ c.cert = .BARRIER ∨ c.cert = .BARRIERALT ∨ c.cert = .STABLESAFE) (hn : PositiveCounts c.nData) (fl : ℝ → ℚ) (g : ℕ → Rng) :
    DrawsSome fl g data0 := by
  refine drawsSome_of_counts fl g (accepted_plain hd hset).2 ?_
  suffices hall : ∀ e ∈ data0, ∃ N, exactCount e.2 = some N ∧ 0 < N from fun l src hl => hall _ (Dict.get?_eq_some_mem hl)
  obtain ⟨D, d, h2, h3, -⟩ := readSets_inv hset
  have hp : ∀ e ∈ D, PlainSet c.nVars e.2 := by
    rintro ⟨k, S⟩ he
    obtain ⟨s, h4, h5⟩ := (readDomainTexts_get h2).2.2 k S he
    obtain ⟨T, hT⟩ := hd.texts k s h4
    exact plain_of_text hT h5
  have hint : ∀ {S : PySet} {N : ℕ}, PlainSet c.nVars S → exactCount (.interior S N) = some N := by
    intro S N h
    cases S with
    | setMinus A B => exact h.elim
    | _ => rfl
  obtain ⟨U, h4, h3⟩ := except_bind_ok h3
  obtain ⟨B, h5, h3⟩ := except_bind_ok h3
  have hB : ∀ e ∈ B, PlainSet c.nVars e.2 := addBorders_all _ U B (readDomains_all D [] U hp (by simp) h4) h5
  have adj : ∀ {raw data : Dict String Src} {doms : Dict String PySet} {nd : NData}, adjustData c.cert raw B nd = .ok (data, doms) → data = raw := by
    intro raw data doms nd h
    rcases hc with e | e | e | e | e <;> rw [e] at h
    · cases h; rfl
    · obtain ⟨X, -, h⟩ := except_bind_ok h
      cases h; rfl
    all_goals (cases h; rfl)
  cases hnd : c.nData with
  | none => rw [hnd] at h3; cases h3
  | some nd =>
    rw [hnd] at h3 hn
    cases nd with
    | int N =>
      rw [adj h3]
      clear h3 h5 adj
      induction B with
      | nil => intro e he; cases he
      | cons a B ih =>
        obtain ⟨k, S⟩ := a
        intro e he
        rcases List.mem_cons.1 he with rfl | he
        · exact ⟨N, hint (hB (k, S) (by simp)), hn⟩
        · exact ih (fun e he => hB e (by simp [he])) e he
    | dict l =>
      obtain ⟨raw, h6, h7⟩ := except_bind_ok h3
      rw [adj h7]
      have key : ∀ (l : List (String × ℕ)) (acc raw : Dict String Src), (∀ e ∈ l, 0 < e.2) → (∀ e ∈ acc, ∃ N, exactCount e.2 = some N ∧ 0 < N) →
          readDataDict B l acc = .ok raw → ∀ e ∈ raw, ∃ N, exactCount e.2 = some N ∧ 0 < N := by
        intro l
        induction l with
        | nil => intro acc raw _ ha h; cases h; exact ha
        | cons a l ih =>
          obtain ⟨k, N⟩ := a
          intro acc raw hl ha h
          have hN : 0 < N := hl (k, N) (by simp)
          have hl' : ∀ e ∈ l, 0 < e.2 := fun e he => hl e (by simp [he])
          obtain ⟨d, -, h⟩ := except_bind_ok h
          split at h
          · obtain ⟨S, hS, h⟩ := except_bind_ok h
            refine ih _ raw hl' (fun e he => ?_) h
            rcases mem_set e he with h | h
            · rw [h]; exact ⟨N, rfl, hN⟩
            · exact ha e h
          · split at h
            · rename_i S hS
              refine ih _ raw hl' (fun e he => ?_) h
              rcases mem_set e he with h | h
              · rw [h]; exact ⟨N, hint (hB _ (Dict.get?_eq_some_mem hS)), hN⟩
              · exact ha e h
            · exact ih _ raw hl' ha h
      exact key l [] raw hn (by simp) h6

/-- **C76 (some data).** For the certificates whose data are not obtained by subtraction (Lyapunov, ROA, Barrier, BarrierAlt, StableSafe), positive counts in the file
give some data for every label, whatever is drawn. -/
theorem C76_draws_some (c : ConfigText) (r : Ready) (hd : DomainsDescribed c) (h : readConfig c = .ok r)
    (hc : c.cert = .LYAPUNOV ∨ c.cert = .ROA ∨ c.cert = .BARRIER ∨ c.cert = .BARRIERALT ∨ c.cert = .STABLESAFE) (hn : PositiveCounts c.nData) (fl : ℝ → ℚ) (g : ℕ → Rng) :
    DrawsSome fl g r.data := 
  sets_draw_some c hd (readConfig_inv h).2 hc hn fl g

/-! ### example -/

/-- The constructor call of the example. -/
theorem exFile_net : newNet 1 [1] [.SQUARE] false true (fun _ _ _ => 1) (fun k _ => if k = 0 then 0 else -1) = .ok (exBarrier .BARRIER).net := by
  simp [newNet, actsOf, activationFcn, takeAbs, hiddenLayers, lastWidth, initMat, initLastLayer, lloWarning, exBarrier, Bind.bind, Except.bind, pure, Except.pure, Except.map]

theorem exFile_good : GoodNet .z3 false [1] [.SQUARE] := by
  refine ⟨by simp, (fun h => by cases h), fun a ha => ?_⟩
  rw [List.mem_singleton.1 ha]
  exact ⟨.square, rfl, rfl, by intro h; cases h⟩

theorem idealWorld_fair (N : Type) (f : List Term) (n : ℕ) (hf : f.length = n) : FairWorld (idealWorld N f) n where
  dyn _ := hf
  num _ x hx := hx
  val i k φ h := by
    have h : smtBackend.isSat (idealSolver φ) = true := h
    unfold idealSolver at h
    split at h <;> cases h
  cons _ _ _ _ := ⟨[], rfl, fun _ => rfl, fun r hr => by cases hr⟩

/-- A file, a solver and an optimiser meeting the hypotheses of the theorems above. -/
theorem exFile_run : ∃ r, FileRun (exConfig .BARRIER) r (fun p i => - p i) (idealWorld (Net × ℚ) (exBarrier .BARRIER).f) exTrainer [1] [.SQUARE] ∧
    r.cfg = ⟨.z3, 1, .BARRIER, (exBarrier .BARRIER).domains, false, 3, false, 10⟩ ∧ ∀ fl g, DrawsSome fl g r.data := by
  obtain ⟨data, hr⟩ := exConfig_ready .BARRIER (Or.inl rfl)
  obtain ⟨s1, s2, s3⟩ := exConfig_sets
  have hd : DomainsDescribed (exConfig .BARRIER) := by
    refine ⟨by decide, ?_⟩
    intro k s hm
    simp only [exConfig, exConfigL, List.mem_cons, Prod.mk.injEq, List.not_mem_nil, or_false] at hm
    rcases hm with ⟨-, rfl⟩ | ⟨-, rfl⟩ | ⟨-, rfl⟩
    exacts [⟨_, s1⟩, ⟨_, s2⟩, ⟨_, s3⟩]
  refine ⟨_, ⟨Or.inl rfl, hd, minus_x_system _, hr, by decide, idealWorld_sound _ _ _, fun _ => rfl, idealWorld_fair _ _ _ rfl, (fun h => by cases h),
    fun _ _ _ => sameShape_refl _, exFile_good⟩, rfl, fun fl g => C76_draws_some _ _ hd hr (by simp [exConfig, exConfigL]) ?_ fl g⟩
  show ∀ e ∈ [("XD", 10), ("XI", 10), ("XU", 10)], 0 < e.2
  decide

/-- Non-vacuity of the theorems of this file: for these random weights the run of the example file reports success, whatever data are drawn. -/
theorem exFile_succeeds (fl : ℝ → ℚ) (gs : ℕ → Rng) (g g' : Rng) : ∃ r S out,
    FileRun (exConfig .BARRIER) r (fun p i => - p i) (idealWorld (Net × ℚ) (exBarrier .BARRIER).f) exTrainer [1] [.SQUARE] ∧ DrawsSome fl gs r.data ∧
    initData fl gs r.data = .ok S ∧
    Solves r.cfg.loop (singleComponents ((idealWorld (Net × ℚ) (exBarrier .BARRIER).f).withEstimate g g' r.cfg) r.cfg false
      (trainedLearn exTrainer r.cfg false (idealWorld (Net × ℚ) (exBarrier .BARRIER).f).dynNum)) ((exBarrier .BARRIER).net, 0) () S out ∧ out.found = true := by
  obtain ⟨r, hr, hcfg, hdr⟩ := exFile_run
  obtain ⟨S, hS, hk, hw, -⟩ := C76_initial_data _ r hr.domains hr.accepted fl gs
  refine ⟨r, S, ?_⟩
  suffices h : ∃ out, Solves r.cfg.loop (singleComponents ((idealWorld (Net × ℚ) (exBarrier .BARRIER).f).withEstimate g g' r.cfg) r.cfg false
      (trainedLearn exTrainer r.cfg false (idealWorld (Net × ℚ) (exBarrier .BARRIER).f).dynNum)) ((exBarrier .BARRIER).net, 0) () S out ∧ out.found = true by
    obtain ⟨out, h⟩ := h
    exact ⟨out, hr, hdr fl gs, hS, h⟩
  obtain ⟨d, -, -, hcheck⟩ := readSets_check (readConfig_inv hr.accepted).2
  rw [← hk] at hcheck
  obtain ⟨l1, -, l3⟩ := checked_labels (ct := .BARRIER) (by decide) hcheck
  obtain ⟨net', e1, hnet, -⟩ := newNet_arch (n := 1) exFile_good true (fun _ _ _ => 1) (fun k _ => if k = 0 then 0 else -1)
  rw [exFile_net] at e1; cases e1
  have hdata : TrainData 1 .BARRIER S (Dict.mapVals (List.map fun x => x) S) := initState_data (fun x hx => hx) hw (fun l hl => by
    obtain ⟨p, hp⟩ := Option.isSome_iff_exists.1 (Dict.get?_isSome_iff.2 (l1 l hl))
    exact ⟨p, hp, hdr fl gs S hS l p hp⟩) l3
  rw [hcfg]
  set cfg : SynthCfg := ⟨.z3, 1, .BARRIER, (exBarrier .BARRIER).domains, false, 3, false, 10⟩ with hcfg'
  set w := idealWorld (Net × ℚ) (exBarrier .BARRIER).f with hwd
  set C := singleComponents (w.withEstimate g g' cfg) cfg false (trainedLearn exTrainer cfg false w.dynNum) with hC
  obtain ⟨⟨n, b1⟩, k, hl, -⟩ : ∃ n k, trainedLearn exTrainer cfg false w.dynNum (initState C ((exBarrier .BARRIER).net, 0) () S) = .ok (n, k) ∧ Usable .z3 1 n.1 := by
    rcases trainedLearn_total exTrainer cfg false w.dynNum (by refine ⟨?_, ?_, ?_⟩ <;> intro h <;> cases h) (fun _ _ _ h => h)
      (initState C ((exBarrier .BARRIER).net, 0) () S) hnet.1 hdata with ⟨h, -⟩ | h
    · cases h
    · exact h
  obtain ⟨m, hm⟩ := trained_after (w := w) _ _ _ hl
  have hid : ∀ i m θ, afterSteps (exTrainer.step i) m θ = θ := by
    intro i m θ
    induction m with
    | zero => rfl
    | succ m ih => exact ih
  rw [hid] at hm
  obtain rfl : n = (exBarrier .BARRIER).net := congrArg Prod.fst hm
  obtain ⟨gr, hq, ha⟩ := exBarrier_accepted.1
  have hd : DistinctLabels gr := by
    obtain ⟨d, V, Vdot, -, -, h⟩ := queriesCT_inv hq
    exact barrier_distinct h
  obtain ⟨cex, hv⟩ := ideal_verifies 1 gr hd (accepted_refutes hd ha)
  unfold queriesCT at hq
  obtain ⟨d, hdd, hq⟩ := except_bind_ok hq
  obtain ⟨⟨V, Vdot⟩, ht, hq⟩ := except_bind_ok hq
  obtain ⟨out, o1, o2, -⟩ := first_pass_when cfg.loop C ((exBarrier .BARRIER).net, 0) () S ((exBarrier .BARRIER).net, b1) k V Vdot cex [] hl ht (by
    have hdd' : initialiseDomains cfg.lib cfg.nVars cfg.cert cfg.domains = .ok d := hdd
    have hq' : singleConstraints cfg.cert cfg.nVars cfg.llo b1 d V Vdot = .ok gr := hq
    have hv' : verify w.backend cfg.nVars (w.noise 0) (w.oracle 0) gr = .ok ⟨true, cex⟩ := hv
    rw [hC]
    simp only [singleComponents, World.withEstimate, bind, Except.bind, hdd', hq', hv', pure, Except.pure]) rfl (fun h => by rcases h with h | h <;> cases h) (fun h => by cases h)
  exact ⟨out, o1, o2⟩

end Fossil
