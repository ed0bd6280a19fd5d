import Verif.Assembly
import Verif.Backends
import Verif.Benchmarks
import Verif.Candidate
import Verif.Cegis
import Verif.Cert
import Verif.Cli
import Verif.Config
import Verif.Console
import Verif.Consolidator
import Verif.ControlConfig
import Verif.Controller
import Verif.Converter
import Verif.Csv
import Verif.Custom
import Verif.Domains
import Verif.Estimate
import Verif.Freeze
import Verif.LearnLoop
import Verif.Learner
import Verif.Lemmas.Act
import Verif.Lemmas.Below
import Verif.Lemmas.Calc
import Verif.Lemmas.Config
import Verif.Lemmas.Continuity
import Verif.Lemmas.Diff
import Verif.Lemmas.Domains
import Verif.Lemmas.Hurwitz
import Verif.Lemmas.Indirect
import Verif.Lemmas.Kinks
import Verif.Lemmas.LLO
import Verif.Lemmas.LaSalle
import Verif.Lemmas.Linearise
import Verif.Lemmas.Net
import Verif.Lemmas.Parser
import Verif.Lemmas.Pipeline
import Verif.Lemmas.Reach
import Verif.Lemmas.Right
import Verif.Lemmas.Sampling
import Verif.Lemmas.Smooth
import Verif.Lemmas.Stability
import Verif.Lemmas.Text
import Verif.Lemmas.TextGood
import Verif.Lemmas.TextParse
import Verif.Lemmas.TextScan
import Verif.Lemmas.TextSound
import Verif.Lemmas.Tight
import Verif.Lemmas.Training
import Verif.Lemmas.Verifier
import Verif.Linearise
import Verif.Logging
import Verif.Loss
import Verif.Net
import Verif.Options
import Verif.ParsedModel
import Verif.Parser
import Verif.Pipeline
import Verif.Plot
import Verif.Props.C01_Verifier
import Verif.Props.C02_DReal
import Verif.Props.C05_Lyapunov
import Verif.Props.C07_LLO
import Verif.Props.C08_ROA
import Verif.Props.C09_Barrier
import Verif.Props.C12_Reach
import Verif.Props.C14_RSWA
import Verif.Props.C15_Double
import Verif.Props.C16_RAR
import Verif.Props.C17_Rounding
import Verif.Props.C17_Translator
import Verif.Props.C18_Discrete
import Verif.Props.C21_Domains
import Verif.Props.C22_Containment
import Verif.Props.C23_Boundary
import Verif.Props.C23_Interior
import Verif.Props.C24_Sampling
import Verif.Props.C25_Border
import Verif.Props.C27_Cegis
import Verif.Props.C30_Consolidator
import Verif.Props.C31_Supervisor
import Verif.Props.C32_Parser
import Verif.Props.C32_Sound
import Verif.Props.C32_Text
import Verif.Props.C33_Binding
import Verif.Props.C34_Cli
import Verif.Props.C35_Learning
import Verif.Props.C36_Labels
import Verif.Props.C38_Controller
import Verif.Props.C39_Converter
import Verif.Props.C40_Timer
import Verif.Props.C41_Csv
import Verif.Props.C41_Names
import Verif.Props.C42_State
import Verif.Props.C44_Accuracy
import Verif.Props.C45_Relu
import Verif.Props.C46_EndToEnd
import Verif.Props.C47_Stability
import Verif.Props.C48_Candidate
import Verif.Props.C49_Double
import Verif.Props.C49_Training
import Verif.Props.C50_Activations
import Verif.Props.C51_Loss
import Verif.Props.C52_Linearise
import Verif.Props.C53_Eigenvalues
import Verif.Props.C54_Lqr
import Verif.Props.C55_DomainText
import Verif.Props.C56_Config
import Verif.Props.C57_Construct
import Verif.Props.C59_ControlConfig
import Verif.Props.C60_VerifyConfig
import Verif.Props.C61_Seeds
import Verif.Props.C62_Options
import Verif.Props.C63_Backends
import Verif.Props.C64_Custom
import Verif.Props.C65_Repr
import Verif.Props.C66_Listing
import Verif.Props.C67_Benchmarks
import Verif.Props.C68_Stopping
import Verif.Props.C69_Freeze
import Verif.Props.C70_Supported
import Verif.Props.C71_Table
import Verif.Props.C72_Record
import Verif.Props.C73_Level
import Verif.Props.C74_Trained
import Verif.Props.C75_Double
import Verif.Props.C76_File
import Verif.Props.C76_LLO
import Verif.Props.C77_ControlFile
import Verif.Props.C78_Regular
import Verif.Props.C79_Console
import Verif.Props.C80_Plot
import Verif.Props.C81_Outline
import Verif.Props.C82_Kinks
import Verif.Props.C83_KinkRuns
import Verif.Props.C84_KinkFiles
import Verif.Props.C85_DiscreteLyapunov
import Verif.Props.C86_KinkControl
import Verif.Props.C87_Lyap
import Verif.Props.C87_Shipped
import Verif.Props.C88_DRealBox
import Verif.Props.C88_DRealFiles
import Verif.Props.C89_Attract
import Verif.Props.C90_Ring
import Verif.Props.C91_Unsolvable
import Verif.Props.C92_Margin
import Verif.Props.C93_MarginMore
import Verif.Props.C94_Held
import Verif.Props.C95_Euler
import Verif.Props.C96_Logging
import Verif.Py
import Verif.Record
import Verif.Regular
import Verif.Repr
import Verif.Sampling
import Verif.Seeds
import Verif.Shipped
import Verif.Smt
import Verif.Spec.Arith
import Verif.Spec.Config
import Verif.Spec.Dynamics
import Verif.Spec.ExprText
import Verif.Spec.Net
import Verif.Spec.Sets
import Verif.Spec.Solver
import Verif.Spec.Stability
import Verif.Spec.Text
import Verif.Start
import Verif.Supervisor
import Verif.Table
import Verif.Text
import Verif.Timer
import Verif.Trained
import Verif.Training
import Verif.Verifier
import Verif.VerifyConfig
