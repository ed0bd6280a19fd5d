/-
The configuration files that come with the project (/repo/experiments/benchmarks/cli/*.yaml), as the dictionaries `yaml.safe_load` returns for them (cli.py:205-206).
Transcribed from the files; `VERBOSE` and `SEED` included. YAML loading itself is not modelled.
-/
import Verif.Options

namespace Fossil

/-- barr-test.yaml:1-19. -/
def barrFile : Dict String Yaml := [
  ("SYSTEM", .texts ["x1 + u0", "x0-x1"]), ("CERTIFICATE", .text "Barrier"),
  ("DOMAINS", .textMap [("XD", "Sphere([0,0], 1.1)"), ("XI", "Sphere([0,0], 0.1)"), ("XU", "Sphere([0.8,0.8], 0.1)")]),
  ("TIME_DOMAIN", .text "CONTINUOUS"), ("VERIFIER", .text "DREAL"), ("N_DATA", .countMap [("XD", 1000), ("XI", 1000), ("XU", 1000)]),
  ("VERBOSE", .bool true), ("N_VARS", .int 2), ("N_HIDDEN_NEURONS", .ints [5]), ("ACTIVATION", .texts ["SQUARE"]), ("CTRLAYER", .ints [5, 1]),
  ("CTRLACTIVATION", .texts ["LINEAR"]), ("SEED", .int 0)]

/-- ctrl_rar_sine.yaml:1-27. -/
def rarSineFile : Dict String Yaml := [
  ("SYSTEM", .texts ["x1 + u0", "u1 + (0.73575*sin(x0) - 0.1*x1) / (0.0375) "]), ("CERTIFICATE", .text "RAR"),
  ("DOMAINS", .textMap [("XD", "Rectangle([-3.5, -3.5], [3.5, 3.5])"), ("XS", "Rectangle([-3.0, -3.0], [3.0, 3.0])"),
    ("XI", "Rectangle([-2.0, -2.0], [2.0, 2.0])"), ("XG", "Rectangle([-0.1, -0.1], [0.1, 0.1])"), ("XF", "Rectangle([-0.2, -0.2], [0.2, 0.2])")]),
  ("TIME_DOMAIN", .text "CONTINUOUS"), ("VERIFIER", .text "DREAL"),
  ("N_DATA", .countMap [("XD", 500), ("XI", 500), ("XU", 500), ("XG", 500), ("XF", 500), ("XNF", 500)]), ("VERBOSE", .int 0), ("N_VARS", .int 2),
  ("N_HIDDEN_NEURONS", .ints [6]), ("ACTIVATION", .texts ["SIGMOID", "SQUARE"]), ("N_HIDDEN_NEURONS_ALT", .ints [6]),
  ("ACTIVATION_ALT", .texts ["SIGMOID", "SQUARE"]), ("CTRLAYER", .ints [8, 2]), ("CTRLACTIVATION", .texts ["LINEAR"]), ("SEED", .int 1),
  ("CEGIS_MAX_ITERS", .int 100)]

/-- lyap-test.yaml:1-15. -/
def lyapFile : Dict String Yaml := [
  ("SYSTEM", .texts ["x1", "-x1 - x0"]), ("CERTIFICATE", .text "Lyapunov"), ("DOMAINS", .textMap [("XD", "Sphere([0,0], 1.0)")]),
  ("TIME_DOMAIN", .text "CONTINUOUS"), ("VERIFIER", .text "Z3"), ("N_DATA", .countMap [("XD", 1000)]), ("N_VARS", .int 2),
  ("N_HIDDEN_NEURONS", .ints [5]), ("ACTIVATION", .texts ["SQUARE"]), ("SEED", .int 0)]

/-- learn.yaml:1-15: the same without a verifier. -/
def learnFile : Dict String Yaml := [
  ("SYSTEM", .texts ["x1", "-x1 - x0"]), ("CERTIFICATE", .text "Lyapunov"), ("DOMAINS", .textMap [("XD", "Sphere([0,0], 1.0)")]),
  ("TIME_DOMAIN", .text "CONTINUOUS"), ("VERIFIER", .text "NONE"), ("N_DATA", .countMap [("XD", 1000)]), ("N_VARS", .int 2),
  ("N_HIDDEN_NEURONS", .ints [5]), ("ACTIVATION", .texts ["SQUARE"]), ("SEED", .int 0)]

/-- rar-test.yaml:1-24. -/
def rarFile : Dict String Yaml := [
  ("SYSTEM", .texts ["x1 + u0", "x0-x1"]), ("CERTIFICATE", .text "RAR"),
  ("DOMAINS", .textMap [("XD", "Sphere([0,0], 1.1)"), ("XI", "Sphere([0,0], 0.1)"), ("XG", "Sphere([0,0], 0.05)"), ("XS", "Sphere([0,0], 1.0)"),
    ("XF", "Sphere([0,0], 0.075)")]),
  ("TIME_DOMAIN", .text "CONTINUOUS"), ("VERIFIER", .text "DREAL"),
  ("N_DATA", .countMap [("XD", 1001), ("XI", 1002), ("XU", 1003), ("XG", 1004), ("XF", 1005), ("XNF", 1006)]), ("VERBOSE", .bool true), ("N_VARS", .int 2),
  ("N_HIDDEN_NEURONS", .ints [5]), ("ACTIVATION", .texts ["SQUARE"]), ("CTRLAYER", .ints [5, 1]), ("CTRLACTIVATION", .texts ["LINEAR"]), ("SEED", .int 0)]

/-- roa-test.yaml:1-17. -/
def roaFile : Dict String Yaml := [
  ("SYSTEM", .texts ["x1 + u0", "x0-x1"]), ("CERTIFICATE", .text "ROA"), ("DOMAINS", .textMap [("XD", "Sphere([0,0], 1.1)"), ("XI", "Sphere([0,0], 0.1)")]),
  ("TIME_DOMAIN", .text "CONTINUOUS"), ("VERIFIER", .text "DREAL"), ("N_DATA", .countMap [("XD", 1000), ("XI", 1000)]), ("VERBOSE", .bool true),
  ("N_VARS", .int 2), ("N_HIDDEN_NEURONS", .ints [5]), ("ACTIVATION", .texts ["SQUARE"]), ("CTRLAYER", .ints [5, 1]), ("CTRLACTIVATION", .texts ["LINEAR"]),
  ("SEED", .int 0)]

/-- rswa-test.yaml:1-23. -/
def rswaFile : Dict String Yaml := [
  ("SYSTEM", .texts ["x1 + u0", "x0-x1"]), ("CERTIFICATE", .text "RSWA"),
  ("DOMAINS", .textMap [("XD", "Sphere([0,0], 1.1)"), ("XI", "Sphere([0,0], 0.1)"), ("XG", "Sphere([0,0], 0.05)"), ("XS", "Sphere([0,0], 1.0)")]),
  ("TIME_DOMAIN", .text "CONTINUOUS"), ("VERIFIER", .text "DREAL"),
  ("N_DATA", .countMap [("XD", 1001), ("XI", 1002), ("XU", 1003), ("XS", 1004), ("XG", 1005), ("XG_BORDER", 1006)]), ("VERBOSE", .bool true), ("N_VARS", .int 2),
  ("N_HIDDEN_NEURONS", .ints [5]), ("ACTIVATION", .texts ["SQUARE"]), ("CTRLAYER", .ints [5, 1]), ("CTRLACTIVATION", .texts ["LINEAR"]), ("SEED", .int 0)]

/-- rwa-test.yaml:1-20. -/
def rwaFile : Dict String Yaml := [
  ("SYSTEM", .texts ["x1 + u0", "x0-x1"]), ("CERTIFICATE", .text "RWA"),
  ("DOMAINS", .textMap [("XD", "Sphere([0,0], 1.1)"), ("XI", "Sphere([0,0], 0.1)"), ("XG", "Sphere([0,0], 0.05)"), ("XS", "Sphere([0,0], 1.0)")]),
  ("TIME_DOMAIN", .text "CONTINUOUS"), ("VERIFIER", .text "DREAL"), ("N_DATA", .countMap [("XD", 1000), ("XI", 1000), ("XU", 1000)]), ("VERBOSE", .bool true),
  ("N_VARS", .int 2), ("N_HIDDEN_NEURONS", .ints [5]), ("ACTIVATION", .texts ["SQUARE"]), ("CTRLAYER", .ints [5, 1]), ("CTRLACTIVATION", .texts ["LINEAR"]),
  ("SEED", .int 0)]

/-- stable-safe-test.yaml:1-19. -/
def stableSafeFile : Dict String Yaml := [
  ("SYSTEM", .texts ["x1 + u0", "x0-x1"]), ("CERTIFICATE", .text "STABLESAFE"),
  ("DOMAINS", .textMap [("XD", "Sphere([0,0], 1.1)"), ("XI", "Sphere([0,0], 0.1)"), ("XU", "Sphere([0.8,0.8], 0.1)")]),
  ("TIME_DOMAIN", .text "CONTINUOUS"), ("VERIFIER", .text "DREAL"), ("N_DATA", .countMap [("XD", 1000), ("XI", 1000), ("XU", 1000)]),
  ("VERBOSE", .bool true), ("N_VARS", .int 2), ("N_HIDDEN_NEURONS", .ints [5]), ("ACTIVATION", .texts ["SQUARE"]), ("CTRLAYER", .ints [5, 1]),
  ("CTRLACTIVATION", .texts ["LINEAR"]), ("SEED", .int 0)]

/-- verify.yaml:1-16. -/
def verifyFile : Dict String Yaml := [
  ("SYSTEM", .texts ["-x0", "-x1"]), ("CERTIFICATE", .text "Lyapunov"), ("CANDIDATE", .texts ["x0**2 + x1**2"]),
  ("DOMAINS", .textMap [("XD", "Torus([0,0], 1.0, 0.1)")]), ("TIME_DOMAIN", .text "CONTINUOUS"), ("VERIFIER", .text "DREAL"), ("N_DATA", .countMap [("XD", 1000)]),
  ("N_VARS", .int 2), ("N_HIDDEN_NEURONS", .ints [5]), ("ACTIVATION", .texts ["SQUARE"]), ("SEED", .int 0)]

end Fossil
