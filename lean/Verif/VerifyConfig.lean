/-
Model of a verification run started from a configuration file (/repo/fossil/main.py:133-148, 151-161, /repo/fossil/cli.py:65-71, 229-247): the file has an
entry `CANDIDATE`, so the entry point calls `verify` instead of `synthesise`. Only systems without controller.
-/
import Verif.Config
import Verif.Candidate

namespace Fossil

/-- `parse_yaml_to_cegis_config` for a file with `CANDIDATE`, the start of `Cegis` and the call of the candidate on the verifier's variables
(cli.py:204-247, cegis.py:30-58, 81-120, main.py:143-145). `readCandidate` is the dReal parser; with another verifier the later gradient raises
(`gradient`), so that only which exception is raised differs. The candidate is read before the sets and applied after; only which exception comes first
differs. -/
def readVerify (c : ConfigText) (cand : List String) : Except Err VerifyCfg := do
  let f ← readSystem c.lib c.nVars c.system
  let (cfg, _) ← readSets c
  let C ← readCandidate cand c.nVars
  return ⟨c.lib, c.nVars, c.check.discrete, c.cert, cfg.domains, c.llo, C, f⟩

/-- What the entry point does with a file (main.py:156-160): `verify` if the file has a `CANDIDATE`, otherwise `synthesise`, here an arbitrary
function of what the loop is started with. -/
def cliEntry {R α : Type} (B : Backend R) (noise : String → ℕ → ℕ → ℚ) (o : Oracle R) (synth : Ready → Except Err α) (c : ConfigText)
    (cand : Option (List String)) : Except Err (VerifyOut ⊕ α) :=
  match cand with
  | some texts => do
    let v ← readVerify c texts
    let r ← verifyCandidate B noise o v
    return .inl r
  | none => do
    let r ← readConfig c
    let a ← synth r
    return .inr a

end Fossil
