/-
C87: the configuration files that come with the project: they are accepted, and what a successful run started from each of them says about its system.
-/
import Verif.Shipped
import Verif.Props.C62_Options
import Verif.Props.C86_KinkControl

namespace Fossil
open Spec Set

namespace Spec

/-- The closed disc with centre `(a, b)` and radius `r`. -/
def disc (a b r : ℚ) : Set (Pt 2) := {p | (p 0 - a) ^ 2 + (p 1 - b) ^ 2 ≤ (r : ℝ) ^ 2}

/-- The system of most of the files: `x0' = x1 + u0`, `x1' = x0 - x1`. -/
def plant (p : Pt 2) (u : Pt 1) : Pt 2 := ![p 1 + u 0, p 0 - p 1]

end Spec

/-! ### the texts -/

theorem layout_blanks : ∀ (ts ws : List (List Char)) (e : List Char), ts.length = ws.length → (∀ w ∈ ws, Blank w) → Blank e →
    Layout ts ((List.zipWith (· ++ ·) ws ts).flatten ++ e)
  | [], [], e, _, _, he => by simpa [Layout] using he
  | t :: ts, w :: ws, e, hl, hw, he =>
    ⟨w, (List.zipWith (· ++ ·) ws ts).flatten ++ e, hw w (by simp), by simp,
      layout_blanks ts ws e (by simpa using hl) (fun v hv => hw v (by simp [hv])) he⟩
  | [], _ :: _, _, h, _, _ => by simp at h
  | _ :: _, [], _, h, _, _ => by simp at h

theorem layout_of {ts : List (List Char)} {s : List Char} (ws : List (List Char)) (e : List Char) (hl : ts.length = ws.length) (hw : ∀ w ∈ ws, ∀ c ∈ w, c = ' ')
    (he : ∀ c ∈ e, c = ' ') (hs : s = (List.zipWith (· ++ ·) ws ts).flatten ++ e) : Layout ts s := by
  rw [hs]
  exact layout_blanks ts ws e hl (fun w h c hc => Or.inl (hw w h c hc)) (fun c hc => Or.inl (he c hc))

/-- A disc written as in the files: `Sphere([a,b], r)`. -/
theorem disc_text {a b r : List Char} {qa qb qr : ℚ} (ha : SignedNumeral a qa) (hb : SignedNumeral b qb) (hr : SignedNumeral r qr) (h0 : 0 ≤ qr) {s : String}
    (hs : s.toList = (List.zipWith (· ++ ·) [[], [], [], [], [], [], [], [], [' '], []] (sphereText [a, b] r)).flatten ++ []) :
    SetText 2 s (disc qa qb qr) ∧ parseDomain s = .ok (.sphere [qa, qb] qr none) := by
  have hl : Layout (sphereText [a, b] r) s.toList := layout_of _ _ (by simp [sphereText, listText, commaSep]) (by simp) (by simp) hs
  refine ⟨?_, C55_sphere_text _ _ _ _ (.cons ha (.cons hb .nil)) hr s hl⟩
  have := SetText.sphere (n := 2) (c := [qa, qb]) (.cons ha (.cons hb .nil)) hr rfl h0 hl
  have e : {p : Pt 2 | distSq [qa, qb] p ≤ (qr : ℝ) ^ 2} = disc qa qb qr := by
    ext p; simp [disc, distSq, entry, Fin.sum_univ_two]
  rwa [e] at this

theorem n0 : SignedNumeral ['0'] 0 := .none (numeral_int (by decide) (by decide +kernel))
theorem n11 : SignedNumeral ['1', '.', '1'] (11/10) := .none (numeral_dec (a := ['1']) (b := ['1']) (by decide) (by decide) (by decide +kernel))
theorem n10 : SignedNumeral ['1', '.', '0'] 1 := .none (numeral_dec (a := ['1']) (b := ['0']) (by decide) (by decide) (by decide +kernel))
theorem n01 : SignedNumeral ['0', '.', '1'] (1/10) := .none (numeral_dec (a := ['0']) (b := ['1']) (by decide) (by decide) (by decide +kernel))
theorem n08 : SignedNumeral ['0', '.', '8'] (4/5) := .none (numeral_dec (a := ['0']) (b := ['8']) (by decide) (by decide) (by decide +kernel))
theorem n005 : SignedNumeral ['0', '.', '0', '5'] (1/20) := .none (numeral_dec (a := ['0']) (b := ['0', '5']) (by decide) (by decide) (by decide +kernel))
theorem n0075 : SignedNumeral ['0', '.', '0', '7', '5'] (3/40) := .none (numeral_dec (a := ['0']) (b := ['0', '7', '5']) (by decide) (by decide) (by decide +kernel))

theorem t11 : SetText 2 "Sphere([0,0], 1.1)" (disc 0 0 (11/10)) ∧ parseDomain "Sphere([0,0], 1.1)" = .ok (.sphere [0, 0] (11/10) none) :=
  disc_text n0 n0 n11 (by norm_num) (by decide +kernel)
theorem t10 : SetText 2 "Sphere([0,0], 1.0)" (disc 0 0 1) ∧ parseDomain "Sphere([0,0], 1.0)" = .ok (.sphere [0, 0] 1 none) :=
  disc_text n0 n0 n10 (by norm_num) (by decide +kernel)
theorem t01 : SetText 2 "Sphere([0,0], 0.1)" (disc 0 0 (1/10)) ∧ parseDomain "Sphere([0,0], 0.1)" = .ok (.sphere [0, 0] (1/10) none) :=
  disc_text n0 n0 n01 (by norm_num) (by decide +kernel)
theorem t005 : SetText 2 "Sphere([0,0], 0.05)" (disc 0 0 (1/20)) ∧ parseDomain "Sphere([0,0], 0.05)" = .ok (.sphere [0, 0] (1/20) none) :=
  disc_text n0 n0 n005 (by norm_num) (by decide +kernel)
theorem t0075 : SetText 2 "Sphere([0,0], 0.075)" (disc 0 0 (3/40)) ∧ parseDomain "Sphere([0,0], 0.075)" = .ok (.sphere [0, 0] (3/40) none) :=
  disc_text n0 n0 n0075 (by norm_num) (by decide +kernel)
theorem tU : SetText 2 "Sphere([0.8,0.8], 0.1)" (disc (4/5) (4/5) (1/10)) ∧ parseDomain "Sphere([0.8,0.8], 0.1)" = .ok (.sphere [4/5, 4/5] (1/10) none) :=
  disc_text n08 n08 n01 (by norm_num) (by decide +kernel)

/-! ### the system -/

theorem no_dstar {funcs : FName → Bool} {ts : List Tok} (h : Tok.dstar ∉ ts) : ¬ MinusPower funcs ts := by
  rintro ⟨p, a, e, r, rfl, -⟩
  simp at h

def plantSys : List AExpr := [.add (.x 1) (.u 0), .sub (.x 0) (.x 1)]

theorem plant_text (once : Bool) (funcs : FName → Bool) : ControlText once funcs 2 1 ["x1 + u0", "x0-x1"] plant := by
  refine ⟨rfl, fun i => plantSys.getD i (.num 0), fun i hi => ?_, fun j hj => ⟨0, by omega, by simp [plantSys, AExpr.us]; omega⟩, fun _ => by decide⟩
  have : i = 0 ∨ i = 1 := by omega
  rcases this with rfl | rfl
  · refine ⟨[.x 1, .plus, .u 0], .add (a := [.x 1]) (b := [.u 0]) (.sum (.term (.factor (.signed (.x 1))))) (.term (.factor (.signed (.u 0)))), no_dstar (by simp),
      ⟨[['x', '1'], ['+'], ['u', '0']], ?_, ?_⟩, by simp [plantSys, AExpr.xs], by simp [plantSys, AExpr.us], fun p u => ?_⟩
    · exact .cons (TokText.x (d := ['1']) ⟨digits_of (by decide), Or.inl rfl⟩) (.cons .plus (.cons (TokText.u (d := ['0']) ⟨digits_of (by decide), Or.inl rfl⟩) .nil))
    · exact layout_of [[], [' '], [' ']] [] rfl (by simp) (by simp) (by decide +kernel)
    · simp [plantSys, AExpr.eval, Pt.env, plant]
  · refine ⟨[.x 0, .minus, .x 1], .sub (a := [.x 0]) (b := [.x 1]) (.sum (.term (.factor (.signed (.x 0))))) (.term (.factor (.signed (.x 1)))), no_dstar (by simp),
      ⟨[['x', '0'], ['-'], ['x', '1']], ?_, ?_⟩, by simp [plantSys, AExpr.xs], by simp [plantSys, AExpr.us], fun p u => ?_⟩
    · exact .cons (TokText.x (d := ['0']) ⟨digits_of (by decide), Or.inl rfl⟩) (.cons .minus (.cons (TokText.x (d := ['1']) ⟨digits_of (by decide), Or.inl rfl⟩) .nil))
    · exact layout_of [[], [], []] [] rfl (by simp) (by simp) (by decide +kernel)
    · simp [plantSys, AExpr.eval, Pt.env, plant]

theorem plant_read : readControlled .dreal ["x1 + u0", "x0-x1"] = .ok plantSys := by
  have p1 : parseText drealFuncs "x1 + u0" = .ok (.add (.x 1) (.u 0)) := rfl
  have p2 : parseText drealFuncs "x0-x1" = .ok (.sub (.x 0) (.x 1)) := rfl
  have hm : (["x1 + u0", "x0-x1"] : List String).mapM (parseText drealFuncs) = .ok plantSys := by
    simp only [List.mapM_cons, List.mapM_nil, p1, p2, Bind.bind, Except.bind, pure, Except.pure, plantSys]
  exact readControlled_ok hm rfl (by decide) hm (by simp [plantSys, inputArgs, sortByName, AExpr.us]) (by simp [plantSys, stateArgs, sortByName, AExpr.xs])

theorem plant_inputs : inputArgs plantSys = [0] := by simp [plantSys, inputArgs, sortByName, AExpr.us]

theorem plant_closed (w0 : ℕ → ℕ → ℕ → ℚ) : ∃ k, controllerOf w0 2 [5, 1] [.LINEAR] = .ok (some k) ∧ ∃ f, closedLoop .dreal plantSys 2 k = .ok f := by
  refine ⟨_, rfl, ?_⟩
  rw [closedLoop, if_pos rfl]
  have hi := plant_inputs
  rw [plantSys] at hi ⊢
  simp [closedSmt, Controller.toSymbolic, zipSym, matVec, round5, vars, symAct, Act.forwardSym, parsedOpenDreal, AExpr.xs, AExpr.us, AExpr.toTerm?, numberSys, AExpr.numberUs,
    drealInput, hi, hiddenMats, initMat, activationFcn, List.range_succ]

/-! ### the files for this system -/

/-- What a file for this system, a certificate, sets and numbers of samples is read as: dReal, continuous time, the default options. -/
def plantConfig (ct : CertType) (doms : List (String × String)) (nd : Dict String ℕ) : ControlConfig :=
  ⟨⟨.dreal, 2, ct, ["x1 + u0", "x0-x1"], doms, some (.dict nd), ⟨1/10, true, false⟩, false, 3, false, 10⟩, [5, 1], [.LINEAR]⟩

def barrConfig : ControlConfig := plantConfig .BARRIER [("XD", "Sphere([0,0], 1.1)"), ("XI", "Sphere([0,0], 0.1)"), ("XU", "Sphere([0.8,0.8], 0.1)")]
  [("XD", 1000), ("XI", 1000), ("XU", 1000)]

def stableSafeConfig : ControlConfig := plantConfig .STABLESAFE [("XD", "Sphere([0,0], 1.1)"), ("XI", "Sphere([0,0], 0.1)"), ("XU", "Sphere([0.8,0.8], 0.1)")]
  [("XD", 1000), ("XI", 1000), ("XU", 1000)]

def roaConfig : ControlConfig := plantConfig .ROA [("XD", "Sphere([0,0], 1.1)"), ("XI", "Sphere([0,0], 0.1)")] [("XD", 1000), ("XI", 1000)]

def rwaConfig : ControlConfig := plantConfig .RWA [("XD", "Sphere([0,0], 1.1)"), ("XI", "Sphere([0,0], 0.1)"), ("XG", "Sphere([0,0], 0.05)"), ("XS", "Sphere([0,0], 1.0)")]
  [("XD", 1000), ("XI", 1000), ("XU", 1000)]

def rswaConfig : ControlConfig := plantConfig .RSWA [("XD", "Sphere([0,0], 1.1)"), ("XI", "Sphere([0,0], 0.1)"), ("XG", "Sphere([0,0], 0.05)"), ("XS", "Sphere([0,0], 1.0)")]
  [("XD", 1001), ("XI", 1002), ("XU", 1003), ("XS", 1004), ("XG", 1005), ("XG_BORDER", 1006)]

def rarConfig : ControlConfig := plantConfig .RAR [("XD", "Sphere([0,0], 1.1)"), ("XI", "Sphere([0,0], 0.1)"), ("XG", "Sphere([0,0], 0.05)"), ("XS", "Sphere([0,0], 1.0)"),
    ("XF", "Sphere([0,0], 0.075)")] [("XD", 1001), ("XI", 1002), ("XU", 1003), ("XG", 1004), ("XF", 1005), ("XNF", 1006)]

/-- The networks the files ask for. -/
def plantNets : NetOpts := ⟨[5], [.SQUARE], [10], [.SQUARE]⟩

/-- **C87.** The six files for this system are read as these configurations. -/
theorem C87_read : readFile barrFile = .ok (.control barrConfig plantNets) ∧ readFile stableSafeFile = .ok (.control stableSafeConfig plantNets) ∧
    readFile roaFile = .ok (.control roaConfig plantNets) ∧ readFile rwaFile = .ok (.control rwaConfig plantNets) ∧
    readFile rswaFile = .ok (.control rswaConfig plantNets) ∧ readFile rarFile = .ok (.control rarConfig plantNets) := by
  refine ⟨?_, ?_, ?_, ?_, ?_, ?_⟩ <;> decide +kernel

theorem plant_ready {ct doms nd cfg data} (w0 : ℕ → ℕ → ℕ → ℚ) (h : readSets (plantConfig ct doms nd).base = .ok (cfg, data)) :
    ∃ k, readControl w0 (plantConfig ct doms nd) = .ok ⟨cfg, plantSys, k, data⟩ := by
  obtain ⟨k, h1, f, h2⟩ := plant_closed w0
  exact ⟨k, readControl_ok plant_read h1 h2 h⟩

theorem sets_ready {ct doms nd D data doms' d} (h1 : readDomainTexts doms = .ok D) (h2 : parseConfig ct D (some (.dict nd)) = .ok (data, doms'))
    (h3 : initialiseDomains .dreal 2 ct doms' = .ok d) (h7 : assertState ct d.keys data.keys = .ok ()) :
    ∃ cfg data, readSets (plantConfig ct doms nd).base = .ok (cfg, data) := by
  have hlr : ¬ ((1/10 : ℚ) ≤ 0) := by norm_num
  exact ⟨_, _, readSets_ok (c := (plantConfig ct doms nd).base) h1 h2 h3 hlr rfl (Or.inl rfl) h7⟩

theorem barr_sets : ∃ cfg data, readSets barrConfig.base = .ok (cfg, data) := by
  have ed : readDomainTexts barrConfig.base.domains = .ok [("XD", .sphere [0, 0] (11/10) none), ("XI", .sphere [0, 0] (1/10) none), ("XU", .sphere [4/5, 4/5] (1/10) none)] := by
    simp only [barrConfig, plantConfig, readDomainTexts, t11.2, t01.2, tU.2, Bind.bind, Except.bind, pure, Except.pure]
  have hp : ∃ (data : Dict String Src) (doms : Dict String PySet), parseConfig .BARRIER [("XD", .sphere [0, 0] (11/10) none), ("XI", .sphere [0, 0] (1/10) none),
      ("XU", .sphere [4/5, 4/5] (1/10) none)] barrConfig.base.nData = .ok (data, doms) ∧
      ∃ d, initialiseDomains .dreal 2 .BARRIER doms = .ok d ∧ assertState .BARRIER d.keys data.keys = .ok () := ⟨_, _, rfl, _, rfl, rfl⟩
  obtain ⟨data, doms, hp, d, hd, ha⟩ := hp
  exact sets_ready ed hp hd ha

theorem stableSafe_sets : ∃ cfg data, readSets stableSafeConfig.base = .ok (cfg, data) := by
  have ed : readDomainTexts stableSafeConfig.base.domains = .ok [("XD", .sphere [0, 0] (11/10) none), ("XI", .sphere [0, 0] (1/10) none), ("XU", .sphere [4/5, 4/5] (1/10) none)] := by
    simp only [stableSafeConfig, plantConfig, readDomainTexts, t11.2, t01.2, tU.2, Bind.bind, Except.bind, pure, Except.pure]
  have hp : ∃ (data : Dict String Src) (doms : Dict String PySet), parseConfig .STABLESAFE [("XD", .sphere [0, 0] (11/10) none), ("XI", .sphere [0, 0] (1/10) none),
      ("XU", .sphere [4/5, 4/5] (1/10) none)] stableSafeConfig.base.nData = .ok (data, doms) ∧
      ∃ d, initialiseDomains .dreal 2 .STABLESAFE doms = .ok d ∧ assertState .STABLESAFE d.keys data.keys = .ok () := ⟨_, _, rfl, _, rfl, rfl⟩
  obtain ⟨data, doms, hp, d, hd, ha⟩ := hp
  exact sets_ready ed hp hd ha

theorem roa_sets : ∃ cfg data, readSets roaConfig.base = .ok (cfg, data) := by
  have ed : readDomainTexts roaConfig.base.domains = .ok [("XD", .sphere [0, 0] (11/10) none), ("XI", .sphere [0, 0] (1/10) none)] := by
    simp only [roaConfig, plantConfig, readDomainTexts, t11.2, t01.2, Bind.bind, Except.bind, pure, Except.pure]
  have hp : ∃ (data : Dict String Src) (doms : Dict String PySet), parseConfig .ROA [("XD", .sphere [0, 0] (11/10) none), ("XI", .sphere [0, 0] (1/10) none)]
      roaConfig.base.nData = .ok (data, doms) ∧
      ∃ d, initialiseDomains .dreal 2 .ROA doms = .ok d ∧ assertState .ROA d.keys data.keys = .ok () := ⟨_, _, rfl, _, rfl, rfl⟩
  obtain ⟨data, doms, hp, d, hd, ha⟩ := hp
  exact sets_ready ed hp hd ha

theorem rwa_sets : ∃ cfg data, readSets rwaConfig.base = .ok (cfg, data) := by
  have ed : readDomainTexts rwaConfig.base.domains = .ok [("XD", .sphere [0, 0] (11/10) none), ("XI", .sphere [0, 0] (1/10) none), ("XG", .sphere [0, 0] (1/20) none),
      ("XS", .sphere [0, 0] 1 none)] := by
    simp only [rwaConfig, plantConfig, readDomainTexts, t11.2, t01.2, t005.2, t10.2, Bind.bind, Except.bind, pure, Except.pure]
  have hp : ∃ (data : Dict String Src) (doms : Dict String PySet), parseConfig .RWA [("XD", .sphere [0, 0] (11/10) none), ("XI", .sphere [0, 0] (1/10) none),
      ("XG", .sphere [0, 0] (1/20) none), ("XS", .sphere [0, 0] 1 none)] rwaConfig.base.nData = .ok (data, doms) ∧
      ∃ d, initialiseDomains .dreal 2 .RWA doms = .ok d ∧ assertState .RWA d.keys data.keys = .ok () := ⟨_, _, rfl, _, rfl, rfl⟩
  obtain ⟨data, doms, hp, d, hd, ha⟩ := hp
  exact sets_ready ed hp hd ha

theorem rswa_sets : ∃ cfg data, readSets rswaConfig.base = .ok (cfg, data) := by
  have ed : readDomainTexts rswaConfig.base.domains = .ok [("XD", .sphere [0, 0] (11/10) none), ("XI", .sphere [0, 0] (1/10) none), ("XG", .sphere [0, 0] (1/20) none),
      ("XS", .sphere [0, 0] 1 none)] := by
    simp only [rswaConfig, plantConfig, readDomainTexts, t11.2, t01.2, t005.2, t10.2, Bind.bind, Except.bind, pure, Except.pure]
  have hp : ∃ (data : Dict String Src) (doms : Dict String PySet), parseConfig .RSWA [("XD", .sphere [0, 0] (11/10) none), ("XI", .sphere [0, 0] (1/10) none),
      ("XG", .sphere [0, 0] (1/20) none), ("XS", .sphere [0, 0] 1 none)] rswaConfig.base.nData = .ok (data, doms) ∧
      ∃ d, initialiseDomains .dreal 2 .RSWA doms = .ok d ∧ assertState .RSWA d.keys data.keys = .ok () := ⟨_, _, rfl, _, rfl, rfl⟩
  obtain ⟨data, doms, hp, d, hd, ha⟩ := hp
  exact sets_ready ed hp hd ha

theorem rar_sets : ∃ cfg data, readSets rarConfig.base = .ok (cfg, data) := by
  have ed : readDomainTexts rarConfig.base.domains = .ok [("XD", .sphere [0, 0] (11/10) none), ("XI", .sphere [0, 0] (1/10) none), ("XG", .sphere [0, 0] (1/20) none),
      ("XS", .sphere [0, 0] 1 none), ("XF", .sphere [0, 0] (3/40) none)] := by
    simp only [rarConfig, plantConfig, readDomainTexts, t11.2, t01.2, t005.2, t10.2, t0075.2, Bind.bind, Except.bind, pure, Except.pure]
  have hp : ∃ (data : Dict String Src) (doms : Dict String PySet), parseConfig .RAR [("XD", .sphere [0, 0] (11/10) none), ("XI", .sphere [0, 0] (1/10) none),
      ("XG", .sphere [0, 0] (1/20) none), ("XS", .sphere [0, 0] 1 none), ("XF", .sphere [0, 0] (3/40) none)] rarConfig.base.nData = .ok (data, doms) ∧
      ∃ d, initialiseDomains .dreal 2 .RAR doms = .ok d ∧ assertState .RAR d.keys data.keys = .ok () := ⟨_, _, rfl, _, rfl, rfl⟩
  obtain ⟨data, doms, hp, d, hd, ha⟩ := hp
  exact sets_ready ed hp hd ha

/-- **C87.** The six files are accepted, whatever the initial weights of the controller. -/
theorem C87_accepted (w0 : ℕ → ℕ → ℕ → ℚ) : (∃ r, readControl w0 barrConfig = .ok r) ∧ (∃ r, readControl w0 stableSafeConfig = .ok r) ∧
    (∃ r, readControl w0 roaConfig = .ok r) ∧ (∃ r, readControl w0 rwaConfig = .ok r) ∧ (∃ r, readControl w0 rswaConfig = .ok r) ∧ ∃ r, readControl w0 rarConfig = .ok r := by
  refine ⟨?_, ?_, ?_, ?_, ?_, ?_⟩
  · obtain ⟨_, _, h⟩ := barr_sets; obtain ⟨k, h⟩ := plant_ready w0 h; exact ⟨_, h⟩
  · obtain ⟨_, _, h⟩ := stableSafe_sets; obtain ⟨k, h⟩ := plant_ready w0 h; exact ⟨_, h⟩
  · obtain ⟨_, _, h⟩ := roa_sets; obtain ⟨k, h⟩ := plant_ready w0 h; exact ⟨_, h⟩
  · obtain ⟨_, _, h⟩ := rwa_sets; obtain ⟨k, h⟩ := plant_ready w0 h; exact ⟨_, h⟩
  · obtain ⟨_, _, h⟩ := rswa_sets; obtain ⟨k, h⟩ := plant_ready w0 h; exact ⟨_, h⟩
  · obtain ⟨_, _, h⟩ := rar_sets; obtain ⟨k, h⟩ := plant_ready w0 h; exact ⟨_, h⟩

namespace Spec

/-- The world a file is run in: the solver is sound, the dynamics given to it are those of the closed loop, numeric evaluation and the consolidator return. -/
structure Surroundings {R N : Type} (c : ControlConfig) (r : ReadyControl) (w : World R Controller N) : Prop where
  sound : SoundWorld r.cfg w
  dynamics : ∀ k f, closedLoop c.base.lib r.sys c.base.nVars k = .ok f → w.dynamics k = f
  fair : FairWorld w c.base.nVars

/-- Optimiser steps do not change the sizes of the networks. -/
def KeepsSizes (T : Trainer Controller) : Prop := ∀ i t θ, SameShape θ.1 (T.step i t θ).1 ∧ SameController θ.2 (T.step i t θ).2

@[inherit_doc KeepsSizes] def KeepsSizes2 (T : Trainer2 Controller) : Prop :=
  ∀ i t θ, SameShape θ.1.1 (T.step i t θ).1.1 ∧ SameShape θ.1.2 (T.step i t θ).1.2 ∧ SameController θ.2 (T.step i t θ).2

end Spec

theorem square_good (lib : Lib) (llo : Bool) (k : ℕ) : GoodNet lib llo [k] [.SQUARE] :=
  ⟨by simp, by simp, fun a ha => by
    rw [List.mem_singleton.1 ha]
    exact ⟨.square, rfl, by cases lib <;> rfl, by decide⟩⟩

theorem plant_run {R : Type} {ct doms nd} {w0 : ℕ → ℕ → ℕ → ℚ} {r : ReadyControl} {w : World R Controller (Net × ℚ)} {T : Trainer Controller}
    (hd : DomainsDescribed (plantConfig ct doms nd).base) (hr : readControl w0 (plantConfig ct doms nd) = .ok r) (hct : ct ≠ .RSWS)
    (hw : Surroundings (plantConfig ct doms nd) r w) (hT : KeepsSizes T) : ControlFileRun (plantConfig ct doms nd) w0 r 1 plant w T [5] [.SQUARE] :=
  ⟨Or.inr rfl, hd, plant_text _ _, by decide, hr, (by decide : (0 : ℤ) ≤ 10), hw.sound, hw.dynamics, hw.fair, fun h => absurd h hct, hT, square_good _ _ _⟩

theorem plant_run2 {R : Type} {ct doms nd} {w0 : ℕ → ℕ → ℕ → ℚ} {r : ReadyControl} {w : World R Controller ((Net × ℚ) × Net)} {T : Trainer2 Controller}
    (hd : DomainsDescribed (plantConfig ct doms nd).base) (hr : readControl w0 (plantConfig ct doms nd) = .ok r)
    (hw : Surroundings (plantConfig ct doms nd) r w) (hT : KeepsSizes2 T) :
    ControlFileRun2 (plantConfig ct doms nd) w0 r 1 plant w T [5] [10] [.SQUARE] [.SQUARE] :=
  ⟨Or.inr rfl, hd, plant_text _ _, by decide, hr, (by decide : (0 : ℤ) ≤ 10), hw.sound, hw.dynamics, hw.fair, hT, square_good _ _ _, square_good _ _ _⟩

theorem disc_mono {r s : ℚ} (h0 : 0 ≤ r) (h : r ≤ s) : disc 0 0 r ⊆ disc 0 0 s := by
  intro p hp
  have h0 : (0 : ℝ) ≤ r := by exact_mod_cast h0
  have h : (r : ℝ) ≤ s := by exact_mod_cast h
  have hp : (p 0 - ((0 : ℚ) : ℝ)) ^ 2 + (p 1 - ((0 : ℚ) : ℝ)) ^ 2 ≤ (r : ℝ) ^ 2 := hp
  exact hp.trans (by nlinarith)

theorem disc_closed (a b r : ℚ) : IsClosed (disc a b r) := by
  unfold disc
  exact isClosed_le (by fun_prop) continuous_const

theorem barr_described (ct : CertType) (nd) :
    DomainsDescribed (plantConfig ct [("XD", "Sphere([0,0], 1.1)"), ("XI", "Sphere([0,0], 0.1)"), ("XU", "Sphere([0.8,0.8], 0.1)")] nd).base := by
  refine ⟨by simp [plantConfig], fun k s hm => ?_⟩
  simp only [plantConfig, List.mem_cons, Prod.mk.injEq, List.not_mem_nil, or_false] at hm
  rcases hm with ⟨-, rfl⟩ | ⟨-, rfl⟩ | ⟨-, rfl⟩
  exacts [⟨_, t11.1⟩, ⟨_, t01.1⟩, ⟨_, tU.1⟩]

theorem roa_described : DomainsDescribed roaConfig.base := by
  refine ⟨by simp [roaConfig, plantConfig], fun k s hm => ?_⟩
  simp only [roaConfig, plantConfig, List.mem_cons, Prod.mk.injEq, List.not_mem_nil, or_false] at hm
  rcases hm with ⟨-, rfl⟩ | ⟨-, rfl⟩
  exacts [⟨_, t11.1⟩, ⟨_, t01.1⟩]

theorem reach_described (ct : CertType) (nd) : DomainsDescribed (plantConfig ct [("XD", "Sphere([0,0], 1.1)"), ("XI", "Sphere([0,0], 0.1)"), ("XG", "Sphere([0,0], 0.05)"),
    ("XS", "Sphere([0,0], 1.0)")] nd).base := by
  refine ⟨by simp [plantConfig], fun k s hm => ?_⟩
  simp only [plantConfig, List.mem_cons, Prod.mk.injEq, List.not_mem_nil, or_false] at hm
  rcases hm with ⟨-, rfl⟩ | ⟨-, rfl⟩ | ⟨-, rfl⟩ | ⟨-, rfl⟩
  exacts [⟨_, t11.1⟩, ⟨_, t01.1⟩, ⟨_, t005.1⟩, ⟨_, t10.1⟩]

theorem rar_described : DomainsDescribed rarConfig.base := by
  refine ⟨by simp [rarConfig, plantConfig], fun k s hm => ?_⟩
  simp only [rarConfig, plantConfig, List.mem_cons, Prod.mk.injEq, List.not_mem_nil, or_false] at hm
  rcases hm with ⟨-, rfl⟩ | ⟨-, rfl⟩ | ⟨-, rfl⟩ | ⟨-, rfl⟩ | ⟨-, rfl⟩
  exacts [⟨_, t11.1⟩, ⟨_, t01.1⟩, ⟨_, t005.1⟩, ⟨_, t10.1⟩, ⟨_, t0075.1⟩]

section
variable {R : Type} {w0 : ℕ → ℕ → ℕ → ℚ} {r : ReadyControl} {w : World R Controller (Net × ℚ)} {T : Trainer Controller}

/-- **C87, barr-test.yaml.** Every run returns after at most eleven passes. If it reports success, no trajectory of the plant driven by the returned controller (weights
rounded to five decimals) that starts within 0.1 of the origin and stays within 1.1 of it comes within 0.1 of `(0.8, 0.8)`. -/
theorem C87_barrier_file (hr : readControl w0 barrConfig = .ok r) (hw : Surroundings barrConfig r w) (hT : KeepsSizes T) (fl : ℝ → ℚ) (gs : ℕ → Rng) (g g' : Rng)
    (wt : ℕ → ℕ → ℕ → ℚ) (bs : ℕ → ℕ → ℚ) :
    ∃ net S out, newNet 2 [5] [.SQUARE] false true wt bs = .ok net ∧ initData fl gs r.data = .ok S ∧
      Solves r.cfg.loop (singleComponents (w.withEstimate g g' r.cfg) r.cfg false (trainedLearn T r.cfg false w.dynNum)) (net, 0) r.ctrl S out ∧ (out.iters : ℤ) ≤ 11 ∧
      (out.found = true → ∀ (T : ℝ) (ξ : ℝ → Pt 2), Trajectory (driven plant (rounded5 out.ctrl)) T ξ → ξ 0 ∈ disc 0 0 (1/10) →
        (∀ t ∈ Icc 0 T, ξ t ∈ disc 0 0 (11/10)) → ∀ t ∈ Icc 0 T, ξ t ∉ disc (4/5) (4/5) (1/10)) :=
  C77_control_safety (plant_run (barr_described _ _) hr (by decide) hw hT) (Or.inl rfl) fl gs g g' wt bs
    (C77_draws_some _ w0 r (barr_described _ _) hr (by simp [barrConfig, plantConfig]) (by show ∀ e ∈ [("XD", 1000), ("XI", 1000), ("XU", 1000)], 0 < e.2; decide) fl gs)
    _ _ _ ⟨_, by simp [barrConfig, plantConfig], t01.1⟩ ⟨_, by simp [barrConfig, plantConfig], t11.1⟩ ⟨_, by simp [barrConfig, plantConfig], tU.1⟩

/-- **C87, roa-test.yaml.** Every run returns. If it reports success, the certificate is at most the reported level (times 1.1) on the disc of radius 0.1, and it does not
increase along trajectories of the driven plant that start in the disc strictly below that level and keep a distance of 0.01 from the origin: they stay below the level. -/
theorem C87_roa_file (hr : readControl w0 roaConfig = .ok r) (hw : Surroundings roaConfig r w) (hT : KeepsSizes T) (fl : ℝ → ℚ) (gs : ℕ → Rng) (g g' : Rng)
    (wt : ℕ → ℕ → ℕ → ℚ) (bs : ℕ → ℕ → ℚ) :
    ∃ net S out, newNet 2 [5] [.SQUARE] false false wt bs = .ok net ∧ initData fl gs r.data = .ok S ∧
      Solves r.cfg.loop (singleComponents (w.withEstimate g g' r.cfg) r.cfg false (trainedLearn T r.cfg false w.dynNum)) (net, 0) r.ctrl S out ∧ (out.iters : ℤ) ≤ 11 ∧
      (out.found = true → (∀ p ∈ disc 0 0 (1/10), certValue 3 false out.net.1 p ≤ (out.net.2 : ℝ) * (11/10)) ∧
        ∀ (T : ℝ) (ξ : ℝ → Pt 2), Trajectory (driven plant (rounded5 out.ctrl)) T ξ → 0 ≤ T → ξ 0 ∈ disc 0 0 (1/10) → (∀ t ∈ Icc 0 T, (1/100)^2 < normSq (ξ t)) →
          certValue 3 false out.net.1 (ξ 0) < (out.net.2 : ℝ) * (11/10) → ∀ t ∈ Icc 0 T, certValue 3 false out.net.1 (ξ t) ≤ (out.net.2 : ℝ) * (11/10)) := by
  obtain ⟨net, S, out, h1, h2, h3, h4, h5⟩ := C77_control_roa (plant_run roa_described hr (by decide) hw hT) rfl fl gs g g' wt bs
    (C77_draws_some _ w0 r roa_described hr (by simp [roaConfig, plantConfig]) (by show ∀ e ∈ [("XD", 1000), ("XI", 1000)], 0 < e.2; decide) fl gs)
    _ ⟨_, by simp [plantConfig], t01.1⟩
  exact ⟨net, S, out, h1, h2, h3, h4, fun hf => ⟨(h5 hf).1, fun T ξ a b c d e => (h5 hf).2 T ξ a b c d (Or.inr e)⟩⟩

/-- **C87, rwa-test.yaml.** If some sample is drawn for each label, every run returns. If it reports success, there is a time within which every trajectory of the driven plant
from within 0.1 of the origin comes within 0.05 of it, staying in the unit disc until then. -/
theorem C87_rwa_file (hr : readControl w0 rwaConfig = .ok r) (hw : Surroundings rwaConfig r w) (hT : KeepsSizes T) (fl : ℝ → ℚ) (gs : ℕ → Rng) (g g' : Rng)
    (wt : ℕ → ℕ → ℕ → ℚ) (bs : ℕ → ℕ → ℚ) (hdraw : DrawsSome fl gs r.data) :
    ∃ net S out, newNet 2 [5] [.SQUARE] false true wt bs = .ok net ∧ initData fl gs r.data = .ok S ∧
      Solves r.cfg.loop (singleComponents (w.withEstimate g g' r.cfg) r.cfg false (trainedLearn T r.cfg false w.dynNum)) (net, 0) r.ctrl S out ∧ (out.iters : ℤ) ≤ 11 ∧
      (out.found = true → ∃ τ : ℝ, ∀ (T : ℝ) (ξ : ℝ → Pt 2), Trajectory (driven plant (rounded5 out.ctrl)) T ξ → τ ≤ T → ξ 0 ∈ disc 0 0 (1/10) →
        (∃ t ∈ Icc 0 τ, ξ t ∈ disc 0 0 (1/20)) ∧ ∀ t ∈ Icc 0 T, ξ t ∈ disc 0 0 1 ∨ ∃ r ∈ Icc 0 t, ξ r ∈ disc 0 0 (1/20)) :=
  C77_control_reach (plant_run (reach_described _ _) hr (by decide) hw hT) (Or.inr (Or.inl rfl)) fl gs g g' wt bs hdraw _ _ _ _
    ⟨_, by simp [plantConfig], t01.1⟩ ⟨_, by simp [plantConfig], t10.1⟩ ⟨_, by simp [plantConfig], t11.1⟩ ⟨_, by simp [plantConfig], t005.1⟩
    (disc_mono (by norm_num) (by norm_num)) (disc_mono (by norm_num) (by norm_num))
    ((disc_closed _ _ _).frontier_subset.trans (disc_mono (by norm_num) (by norm_num)))

/-- **C87, rswa-test.yaml.** The same for the file that asks for reach-and-stay (the stay condition is not checked for RSWA, C14). -/
theorem C87_rswa_file (hr : readControl w0 rswaConfig = .ok r) (hw : Surroundings rswaConfig r w) (hT : KeepsSizes T) (fl : ℝ → ℚ) (gs : ℕ → Rng) (g g' : Rng)
    (wt : ℕ → ℕ → ℕ → ℚ) (bs : ℕ → ℕ → ℚ) (hdraw : DrawsSome fl gs r.data) :
    ∃ net S out, newNet 2 [5] [.SQUARE] false true wt bs = .ok net ∧ initData fl gs r.data = .ok S ∧
      Solves r.cfg.loop (singleComponents (w.withEstimate g g' r.cfg) r.cfg false (trainedLearn T r.cfg false w.dynNum)) (net, 0) r.ctrl S out ∧ (out.iters : ℤ) ≤ 11 ∧
      (out.found = true → ∃ τ : ℝ, ∀ (T : ℝ) (ξ : ℝ → Pt 2), Trajectory (driven plant (rounded5 out.ctrl)) T ξ → τ ≤ T → ξ 0 ∈ disc 0 0 (1/10) →
        (∃ t ∈ Icc 0 τ, ξ t ∈ disc 0 0 (1/20)) ∧ ∀ t ∈ Icc 0 T, ξ t ∈ disc 0 0 1 ∨ ∃ r ∈ Icc 0 t, ξ r ∈ disc 0 0 (1/20)) :=
  C77_control_reach (plant_run (reach_described _ _) hr (by decide) hw hT) (Or.inr (Or.inr (Or.inr rfl))) fl gs g g' wt bs hdraw _ _ _ _
    ⟨_, by simp [plantConfig], t01.1⟩ ⟨_, by simp [plantConfig], t10.1⟩ ⟨_, by simp [plantConfig], t11.1⟩ ⟨_, by simp [plantConfig], t005.1⟩
    (disc_mono (by norm_num) (by norm_num)) (disc_mono (by norm_num) (by norm_num))
    ((disc_closed _ _ _).frontier_subset.trans (disc_mono (by norm_num) (by norm_num)))

end

section
variable {R : Type} {w0 : ℕ → ℕ → ℕ → ℚ} {r : ReadyControl} {w : World R Controller ((Net × ℚ) × Net)} {T : Trainer2 Controller}

/-- **C87, stable-safe-test.yaml.** Every run returns. If it reports success, no trajectory of the driven plant that starts within 0.1 of the origin and stays within 1.1 of it
comes within 0.1 of `(0.8, 0.8)`. -/
theorem C87_stable_safe_file (hr : readControl w0 stableSafeConfig = .ok r) (hw : Surroundings stableSafeConfig r w) (hT : KeepsSizes2 T) (fl : ℝ → ℚ) (gs : ℕ → Rng)
    (wt wt2 : ℕ → ℕ → ℕ → ℚ) (bs bs2 : ℕ → ℕ → ℚ) :
    ∃ net net2 S out, newNet 2 [5] [.SQUARE] false false wt bs = .ok net ∧ newNet 2 [10] [.SQUARE] false true wt2 bs2 = .ok net2 ∧ initData fl gs r.data = .ok S ∧
      Solves r.cfg.loop (doubleComponents w r.cfg (trainedLearn2 T r.cfg w.dynNum)) ((net, 0), net2) r.ctrl S out ∧ (out.iters : ℤ) ≤ 11 ∧
      (out.found = true → ∀ (T : ℝ) (ξ : ℝ → Pt 2), Trajectory (driven plant (rounded5 out.ctrl)) T ξ → ξ 0 ∈ disc 0 0 (1/10) →
        (∀ t ∈ Icc 0 T, ξ t ∈ disc 0 0 (11/10)) → ∀ t ∈ Icc 0 T, ξ t ∉ disc (4/5) (4/5) (1/10)) :=
  C77_control_stable_safe (plant_run2 (barr_described _ _) hr hw hT) rfl fl gs wt wt2 bs bs2
    (C77_draws_some _ w0 r (barr_described _ _) hr (by simp [stableSafeConfig, plantConfig])
      (by show ∀ e ∈ [("XD", 1000), ("XI", 1000), ("XU", 1000)], 0 < e.2; decide) fl gs)
    _ _ _ ⟨_, by simp [plantConfig], t01.1⟩ ⟨_, by simp [plantConfig], t11.1⟩ ⟨_, by simp [plantConfig], tU.1⟩

/-- **C87, rar-test.yaml.** If some sample is drawn for each label, every run returns. If it reports success, there is a time within which every trajectory of the driven plant
from within 0.1 of the origin (and staying within 1.1 of it) comes within 0.05 of it, in the unit disc until then, and from then on it is within 0.075 of the origin. -/
theorem C87_rar_file (hr : readControl w0 rarConfig = .ok r) (hw : Surroundings rarConfig r w) (hT : KeepsSizes2 T) (fl : ℝ → ℚ) (gs : ℕ → Rng)
    (wt wt2 : ℕ → ℕ → ℕ → ℚ) (bs bs2 : ℕ → ℕ → ℚ) (hdraw : DrawsSome fl gs r.data) :
    ∃ net net2 S out, newNet 2 [5] [.SQUARE] false true wt bs = .ok net ∧ newNet 2 [10] [.SQUARE] false true wt2 bs2 = .ok net2 ∧ initData fl gs r.data = .ok S ∧
      Solves r.cfg.loop (doubleComponents w r.cfg (trainedLearn2 T r.cfg w.dynNum)) ((net, 0), net2) r.ctrl S out ∧ (out.iters : ℤ) ≤ 11 ∧
      (out.found = true → ∃ τ : ℝ, ∀ (T : ℝ) (ξ : ℝ → Pt 2), Trajectory (driven plant (rounded5 out.ctrl)) T ξ → τ ≤ T → ξ 0 ∈ disc 0 0 (1/10) →
        (∀ t ∈ Icc 0 T, ξ t ∈ disc 0 0 (11/10)) →
        (∃ t ∈ Icc 0 τ, ξ t ∈ disc 0 0 (1/20)) ∧ (∀ t ∈ Icc 0 T, ξ t ∈ disc 0 0 1 ∨ ∃ r ∈ Icc 0 t, ξ r ∈ disc 0 0 (1/20)) ∧
          ∀ r ∈ Icc 0 T, ξ r ∈ disc 0 0 (1/20) → ∀ t ∈ Icc r T, ξ t ∈ disc 0 0 (3/40)) :=
  C77_control_rar (plant_run2 rar_described hr hw hT) rfl fl gs wt wt2 bs bs2 hdraw _ _ _ _ _
    ⟨_, by simp [plantConfig], t01.1⟩ ⟨_, by simp [plantConfig], t10.1⟩ ⟨_, by simp [plantConfig], t11.1⟩ ⟨_, by simp [plantConfig], t005.1⟩ ⟨_, by simp [plantConfig], t0075.1⟩
    (disc_mono (by norm_num) (by norm_num)) (disc_mono (by norm_num) (by norm_num))
    ((disc_closed _ _ _).frontier_subset.trans (disc_mono (by norm_num) (by norm_num)))

end
