/-
Model of the regularisation term added to the loss when a controller is trained: /repo/fossil/control.py:408-411 (`cosine_reg`), used in
certificate.py:266-267 (Lyapunov), 1020-1022 (RWS), 1214-1216 (RSWS), 1537-1539 (RAR). Real arithmetic.
-/
import Verif.Loss

namespace Fossil

/-- Inner product of two rows. -/
noncomputable def rowDot {n : ℕ} (x y : Fin n → ℝ) : ℝ := ∑ i, x i * y i

/-- Euclidean norm of a row. -/
noncomputable def rowNorm {n : ℕ} (x : Fin n → ℝ) : ℝ := Real.sqrt (rowDot x x)

/-- `torch.nn.CosineSimilarity(dim=1)` on one row, with its default `eps = 1e-8` (control.py:409). -/
noncomputable def cosSim {n : ℕ} (x y : Fin n → ℝ) : ℝ := rowDot x y / (max (rowNorm x) (1 / 10 ^ 8) * max (rowNorm y) (1 / 10 ^ 8))

/-- `cosine_reg(S, Sdot)` (control.py:408-411): the mean cosine of derivative and state. Both tensors have the same number of rows
(certificate.py:254); rows are paired. -/
noncomputable def cosineReg {n : ℕ} (S Sdot : List (Fin n → ℝ)) : Option ℝ := meanOf (List.zipWith cosSim Sdot S)

/-- The loss with a controller (certificate.py:267, 1022, 1216, 1539). -/
noncomputable def controlledLoss {n : ℕ} (loss : Option ℝ) (S Sdot : List (Fin n → ℝ)) : Option ℝ := nanAdd loss (cosineReg S Sdot)

end Fossil
