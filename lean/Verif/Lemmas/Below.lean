/- The formulas of the configured sets mention only the state variables; for sets inside `(-1000, 1000)ⁿ` every query that contains such a formula
confines the state variables. -/
import Verif.Lemmas.Pipeline

namespace Fossil
open Spec

theorem mapE_mem {α β : Type _} {f : α → Except Err β} : ∀ {l : List α} {r : List β}, mapE f l = .ok r → ∀ b ∈ r, ∃ a ∈ l, f a = .ok b := by
  intro l
  induction l with
  | nil => intro r h; cases h; simp
  | cons a l ih =>
    intro r h
    unfold mapE at h
    split at h
    · cases h
    rename_i b hb
    split at h
    · cases h
    rename_i bs hbs
    cases h
    intro c hc
    rcases List.mem_cons.1 hc with rfl | hc
    · exact ⟨a, by simp, hb⟩
    · obtain ⟨a', h1, h2⟩ := ih hbs c hc
      exact ⟨a', by simp [h1], h2⟩

theorem at?_mem {α : Type _} {l : List α} {i : ℕ} {a : α} (h : at? l i = .ok a) : a ∈ l := by
  unfold at? at h
  split at h
  · cases h; exact List.mem_of_getElem? ‹_›
  · cases h

theorem selectDims_mem {α : Type _} {ds : Option (List ℕ)} {x y : List α} (h : selectDims ds x = .ok y) : ∀ t ∈ y, t ∈ x := by
  unfold selectDims at h
  split at h
  · intro t ht
    obtain ⟨i, -, hi⟩ := mapE_mem h t ht
    exact at?_mem hi
  · cases h; exact fun t ht => ht

theorem termBelow_sum {n : ℕ} {l : List Term} (h : ∀ t ∈ l, termBelow n t) : termBelow n (Term.sum l) := by
  have key : ∀ (l : List Term) (a : Term), termBelow n a → (∀ t ∈ l, termBelow n t) → termBelow n (l.foldl Term.add a) := by
    intro l
    induction l with
    | nil => intro a ha _; exact ha
    | cons b l ih => intro a ha h; exact ih _ ⟨ha, h b (by simp)⟩ (fun t ht => h t (by simp [ht]))
  exact key l _ trivial h

theorem formulaBelow_conj {n : ℕ} {l : List Formula} (h : ∀ φ ∈ l, formulaBelow n φ) : formulaBelow n (Formula.conj l) := by
  induction l with
  | nil => trivial
  | cons a l ih =>
    cases l with
    | nil => exact h a (by simp)
    | cons b l => exact ⟨h a (by simp), ih (fun t ht => h t (by simp [ht]))⟩

theorem formulaBelow_disj {n : ℕ} {l : List Formula} (h : ∀ φ ∈ l, formulaBelow n φ) : formulaBelow n (Formula.disj l) := by
  induction l with
  | nil => trivial
  | cons a l ih =>
    cases l with
    | nil => exact h a (by simp)
    | cons b l => exact ⟨h a (by simp), ih (fun t ht => h t (by simp [ht]))⟩

variable {n : ℕ} {x : List Term} (hx : ∀ t ∈ x, termBelow n t)
include hx

theorem sqDist_below {c : List ℚ} {m : ℕ} {s : Term} (h : sqDist x c m = .ok s) : termBelow n s := by
  obtain ⟨l, h1, h2⟩ := except_bind_ok h
  cases h2
  refine termBelow_sum fun t ht => ?_
  obtain ⟨i, -, hi⟩ := mapE_mem h1 t ht
  obtain ⟨a, ha, hi⟩ := except_bind_ok hi
  obtain ⟨b, hb, hi⟩ := except_bind_ok hi
  cases hi
  exact ⟨hx a (at?_mem ha), trivial⟩

theorem sqEll_below {a c : List ℚ} {m : ℕ} {s : Term} (h : sqEll x a c m = .ok s) : termBelow n s := by
  obtain ⟨l, h1, h2⟩ := except_bind_ok h
  cases h2
  refine termBelow_sum fun t ht => ?_
  obtain ⟨i, -, hi⟩ := mapE_mem h1 t ht
  obtain ⟨k, hk, hi⟩ := except_bind_ok hi
  obtain ⟨a, ha, hi⟩ := except_bind_ok hi
  obtain ⟨b, hb, hi⟩ := except_bind_ok hi
  cases hi
  exact ⟨⟨trivial, hx a (at?_mem ha)⟩, trivial⟩

theorem boundList_below {cmp : Term → Term → Formula} (hcmp : ∀ a b, formulaBelow n (cmp a b) ↔ termBelow n a ∧ termBelow n b) {lower : Bool} {bs : List ℚ}
    {m : ℕ} {l : List Formula} (h : boundList cmp lower bs m x = .ok l) : ∀ φ ∈ l, formulaBelow n φ := by
  intro φ hφ
  obtain ⟨i, -, hi⟩ := mapE_mem h φ hφ
  obtain ⟨b, hb, hi⟩ := except_bind_ok hi
  obtain ⟨a, ha, hi⟩ := except_bind_ok hi
  cases hi
  have := hx a (at?_mem ha)
  cases lower
  · exact (hcmp _ _).2 ⟨this, trivial⟩
  · exact (hcmp _ _).2 ⟨trivial, this⟩

theorem rectDomain_below {b : Lib} {cmp : Term → Term → Formula} (hcmp : ∀ a b, formulaBelow n (cmp a b) ↔ termBelow n a ∧ termBelow n b) {lb ub : List ℚ} {φ : Formula}
    (h : rectDomain b cmp lb ub x = .ok φ) : formulaBelow n φ := by
  obtain ⟨_, -, h⟩ := except_bind_ok h
  obtain ⟨l, h1, h⟩ := except_bind_ok h
  obtain ⟨u, h2, h⟩ := except_bind_ok h
  cases h
  exact ⟨formulaBelow_conj (boundList_below hx hcmp h1), formulaBelow_conj (boundList_below hx hcmp h2)⟩

theorem beanPoly_below {c : List ℚ} {r : ℚ} {s : Term} (h : beanPoly c r x = .ok s) : termBelow n s := by
  unfold beanPoly at h
  split at h
  · cases h
    rename_i a b _ _
    have ha := hx a (by simp)
    have hb := hx b (by simp)
    simp [termBelow, ha, hb]
  · cases h

theorem domain_below {b : Lib} {S : PySet} {φ : Formula} (h : S.generateDomain b x = .ok φ) : formulaBelow n φ := by
  induction S generalizing φ with
  | rectangle lb ub ds => exact rectDomain_below hx (fun _ _ => Iff.rfl) h
  | openRectangle lb ub ds => exact rectDomain_below hx (fun _ _ => Iff.rfl) h
  | sphere c r ds | openSphere c r ds =>
    obtain ⟨y, h1, h⟩ := except_bind_ok h
    obtain ⟨s, h2, h⟩ := except_bind_ok h
    cases h
    exact ⟨sqDist_below (fun t ht => hx t (selectDims_mem h1 t ht)) h2, trivial⟩
  | ellipse a c r ds =>
    obtain ⟨_, -, h⟩ := except_bind_ok h
    obtain ⟨y, h1, h⟩ := except_bind_ok h
    obtain ⟨s, h2, h⟩ := except_bind_ok h
    cases h
    exact ⟨sqEll_below (fun t ht => hx t (selectDims_mem h1 t ht)) h2, trivial⟩
  | posSphere c r =>
    obtain ⟨_, -, h⟩ := except_bind_ok h
    obtain ⟨s, h2, h⟩ := except_bind_ok h
    cases h
    refine formulaBelow_conj fun φ hφ => ?_
    rcases List.mem_append.1 hφ with hφ | hφ
    · obtain ⟨t, ht, rfl⟩ := List.mem_map.1 hφ
      exact ⟨trivial, hx t ht⟩
    · rw [List.mem_singleton] at hφ
      subst hφ
      exact ⟨sqDist_below hx h2, trivial⟩
  | torus c ro ri ds =>
    obtain ⟨y, h1, h⟩ := except_bind_ok h
    obtain ⟨_, -, h⟩ := except_bind_ok h
    obtain ⟨s, h2, h⟩ := except_bind_ok h
    cases h
    have := sqDist_below (fun t ht => hx t (selectDims_mem h1 t ht)) h2
    exact ⟨⟨trivial, this⟩, this, trivial⟩
  | bean c r =>
    obtain ⟨s, h2, h⟩ := except_bind_ok h
    cases h
    exact ⟨beanPoly_below hx h2, trivial⟩
  | empty | reals =>
    obtain ⟨_, -, h⟩ := except_bind_ok h
    cases h
    trivial
  | union S T ihS ihT | inter S T ihS ihT =>
    obtain ⟨_, -, h⟩ := except_bind_ok h
    obtain ⟨s, h1, h⟩ := except_bind_ok h
    obtain ⟨t, h2, h⟩ := except_bind_ok h
    cases h
    exact ⟨ihS h1, ihT h2⟩
  | setMinus S T ihS ihT =>
    obtain ⟨_, -, h⟩ := except_bind_ok h
    obtain ⟨s, h1, h⟩ := except_bind_ok h
    obtain ⟨_, -, h⟩ := except_bind_ok h
    obtain ⟨t, h2, h⟩ := except_bind_ok h
    cases h
    exact ⟨ihS h1, show formulaBelow n t from ihT h2⟩
  | compl S ih =>
    obtain ⟨_, -, h⟩ := except_bind_ok h
    obtain ⟨s, h1, h⟩ := except_bind_ok h
    cases h
    exact show formulaBelow n s from ih h1

theorem boundary_below {b : Lib} {S : PySet} {φ : Formula} (h : S.generateBoundary b x = .ok φ) : formulaBelow n φ := by
  induction S generalizing φ with
  | rectangle lb ub ds | openRectangle lb ub ds =>
    obtain ⟨_, -, h⟩ := except_bind_ok h
    obtain ⟨_, -, h⟩ := except_bind_ok h
    obtain ⟨i, h0, h⟩ := except_bind_ok h
    obtain ⟨l, h1, h⟩ := except_bind_ok h
    obtain ⟨u, h2, h⟩ := except_bind_ok h
    cases h
    exact ⟨⟨formulaBelow_disj (boundList_below hx (fun _ _ => Iff.rfl) h1), formulaBelow_disj (boundList_below hx (fun _ _ => Iff.rfl) h2)⟩, domain_below hx h0⟩
  | sphere c r ds | openSphere c r ds =>
    obtain ⟨y, h1, h⟩ := except_bind_ok h
    obtain ⟨s, h2, h⟩ := except_bind_ok h
    cases h
    exact ⟨sqDist_below (fun t ht => hx t (selectDims_mem h1 t ht)) h2, trivial⟩
  | ellipse a c r ds =>
    obtain ⟨_, -, h⟩ := except_bind_ok h
    obtain ⟨y, h1, h⟩ := except_bind_ok h
    obtain ⟨s, h2, h⟩ := except_bind_ok h
    cases h
    exact ⟨sqEll_below (fun t ht => hx t (selectDims_mem h1 t ht)) h2, trivial⟩
  | torus c ro ri ds =>
    obtain ⟨_, -, h⟩ := except_bind_ok h
    obtain ⟨s, h2, h⟩ := except_bind_ok h
    cases h
    have := sqDist_below hx h2
    exact ⟨⟨this, trivial⟩, this, trivial⟩
  | bean c r =>
    obtain ⟨s, h2, h⟩ := except_bind_ok h
    cases h
    exact ⟨beanPoly_below hx h2, trivial⟩
  | empty =>
    obtain ⟨_, -, h⟩ := except_bind_ok h
    cases h
    trivial
  | posSphere | reals | union | inter => cases h
  | setMinus S T ihS ihT =>
    obtain ⟨_, -, h⟩ := except_bind_ok h
    obtain ⟨s, h1, h⟩ := except_bind_ok h
    obtain ⟨t, h2, h⟩ := except_bind_ok h
    cases h
    exact ⟨ihS h1, show formulaBelow n t from ihT h2⟩
  | compl S ih => exact ih h

omit hx

theorem vars_below (n : ℕ) : ∀ t ∈ vars n, termBelow n t := by
  intro t ht
  simp only [vars, List.mem_map, List.mem_range] at ht
  obtain ⟨i, hi, rfl⟩ := ht
  exact hi

/-! ### the translator introduces no variables -/

/-- Every term of the list mentions only the first `n` (state) variables. -/
def Spec.AllBelow (n : ℕ) (l : List Term) : Prop := ∀ t ∈ l, termBelow n t

theorem all_zipWith {n : ℕ} {α β : Type _} {f : α → β → Term} {l : List α} {m : List β} (h : ∀ a ∈ l, ∀ b ∈ m, termBelow n (f a b)) : AllBelow n (List.zipWith f l m) := by
  intro t ht
  obtain ⟨i, hi, rfl⟩ := List.getElem_of_mem ht
  rw [List.getElem_zipWith]
  exact h _ (List.getElem_mem _) _ (List.getElem_mem _)

theorem matVec_below {n : ℕ} {w : List (List ℚ)} {z y : List Term} (hz : AllBelow n z) (h : matVec w z = .ok y) : AllBelow n y := by
  unfold matVec at h
  split at h
  · cases h
    intro t ht
    obtain ⟨r, -, rfl⟩ := List.mem_map.1 ht
    exact termBelow_sum (all_zipWith fun c _ t ht => ⟨trivial, hz t ht⟩)
  · cases h

theorem addBias_below {n : ℕ} {b : List ℚ} {z y : List Term} (hz : AllBelow n z) (h : addBias z b = .ok y) : AllBelow n y := by
  unfold addBias at h
  split at h
  · cases h
    exact all_zipWith fun t ht c _ => ⟨hz t ht, trivial⟩
  · cases h

theorem polyParts_mem {α : Type _} {k : ℕ} {x : List α} {p : List α} (hp : p ∈ polyParts k x) : ∀ t ∈ p, t ∈ x := by
  intro t ht
  simp only [polyParts, List.mem_append, List.mem_map, List.mem_singleton] at hp
  rcases hp with ⟨i, -, rfl⟩ | rfl
  · exact List.mem_of_mem_drop (List.mem_of_mem_take ht)
  · exact List.mem_of_mem_drop ht

theorem polyCat_below {n k : ℕ} {x : List Term} {g : ℕ → Term → Term} (hx : AllBelow n x) (hg : ∀ i t, termBelow n t → termBelow n (g i t)) :
    AllBelow n (polyCat g (polyParts k x)) := by
  intro t ht
  obtain ⟨l, hl, ht⟩ := List.mem_flatten.1 ht
  obtain ⟨i, hi, rfl⟩ := List.mem_mapIdx.1 hl
  obtain ⟨s, hs, rfl⟩ := List.mem_map.1 ht
  exact hg _ _ (hx s (polyParts_mem (List.getElem_mem hi) s hs))

theorem map_below {n : ℕ} {x : List Term} {g : Term → Term} (hx : AllBelow n x) (hg : ∀ t, termBelow n t → termBelow n (g t)) : AllBelow n (x.map g) := by
  intro t ht
  obtain ⟨s, hs, rfl⟩ := List.mem_map.1 ht
  exact hg s (hx s hs)

theorem append_below {n : ℕ} {x y : List Term} (hx : AllBelow n x) (hy : AllBelow n y) : AllBelow n (x ++ y) := by
  intro t ht
  rcases List.mem_append.1 ht with h | h
  exacts [hx t h, hy t h]

theorem take_below {n k : ℕ} {x : List Term} (hx : AllBelow n x) : AllBelow n (x.take k) := fun t ht => hx t (List.mem_of_mem_take ht)
theorem drop_below {n k : ℕ} {x : List Term} (hx : AllBelow n x) : AllBelow n (x.drop k) := fun t ht => hx t (List.mem_of_mem_drop ht)

theorem tanhTerm_below {n : ℕ} {lib : Lib} {t : Term} (h : termBelow n t) : termBelow n (tanhTerm lib t) := by
  cases lib <;> simp [tanhTerm, termBelow, h]

theorem forwardSym_below {n : ℕ} {lib : Lib} {a : Act} {x y : List Term} (hx : AllBelow n x) (h : a.forwardSym lib x = .ok y) : AllBelow n y := by
  cases a with
  | identity => cases h; exact hx
  | square => cases h; exact map_below hx fun t ht => ht
  | poly2 => cases h; exact append_below (take_below hx) (map_below (drop_below hx) fun t ht => ht)
  | polyN k => cases h; exact polyCat_below hx fun i t ht => ht
  | evenPolyN k => cases h; exact polyCat_below hx fun i t ht => ht
  | relu =>
    obtain ⟨_, -, h⟩ := except_bind_ok h
    obtain ⟨_, -, h⟩ := except_bind_ok h
    cases h; exact map_below hx fun t ht => ht
  | tanh | tanhSquared =>
    obtain ⟨_, -, h⟩ := except_bind_ok h
    cases h; exact map_below hx fun t ht => tanhTerm_below ht
  | sigmoid | softplus | shiftedSoftplus | shiftedSoftplusSquare | cosh =>
    obtain ⟨_, -, h⟩ := except_bind_ok h
    cases h; exact map_below hx fun t ht => by simp [termBelow, one, ht]

theorem derivativeSym_below {n : ℕ} {lib : Lib} {a : Act} {x y : List Term} (hx : AllBelow n x) (h : a.derivativeSym lib x = .ok y) : AllBelow n y := by
  cases a with
  | identity => cases h; exact map_below hx fun t ht => trivial
  | square => cases h; exact map_below hx fun t ht => ⟨trivial, ht⟩
  | poly2 => cases h; exact append_below (map_below (take_below hx) fun t ht => trivial) (map_below (drop_below hx) fun t ht => ⟨trivial, ht⟩)
  | polyN k => cases h; exact polyCat_below hx fun i t ht => ⟨trivial, ht⟩
  | evenPolyN k => cases h; exact polyCat_below hx fun i t ht => ⟨trivial, ht⟩
  | relu =>
    obtain ⟨_, -, h⟩ := except_bind_ok h
    obtain ⟨_, -, h⟩ := except_bind_ok h
    cases h; exact map_below hx fun t ht => ht
  | tanh | tanhSquared =>
    obtain ⟨_, -, h⟩ := except_bind_ok h
    cases h; exact map_below hx fun t ht => by simp [termBelow, one, tanhTerm_below ht]
  | sigmoid | softplus | shiftedSoftplus | shiftedSoftplusSquare | cosh =>
    obtain ⟨_, -, h⟩ := except_bind_ok h
    cases h; exact map_below hx fun t ht => by simp [termBelow, one, ht]

theorem matJac_below {n m : ℕ} {w : List (List ℚ)} {J K : List (List Term)} (hJ : ∀ r ∈ J, AllBelow n r) (h : matJac m w J = .ok K) : ∀ r ∈ K, AllBelow n r := by
  unfold matJac at h
  split at h
  · cases h
    intro r hr t ht
    obtain ⟨v, -, rfl⟩ := List.mem_map.1 hr
    obtain ⟨j, -, rfl⟩ := List.mem_map.1 ht
    refine termBelow_sum (all_zipWith fun c _ row hrow => ⟨trivial, ?_⟩)
    rw [List.getD_eq_getElem?_getD]
    cases hg : row[j]? with
    | none => trivial
    | some t => exact hJ row hrow t (List.mem_of_getElem? hg)
  · cases h

theorem diagJac_below {n : ℕ} {d : List Term} {J : List (List Term)} (hd : AllBelow n d) (hJ : ∀ r ∈ J, AllBelow n r) : ∀ r ∈ diagJac d J, AllBelow n r := by
  intro r hr
  obtain ⟨i, hi, rfl⟩ := List.getElem_of_mem hr
  simp only [diagJac, List.getElem_zipWith]
  exact map_below (hJ _ (List.getElem_mem _)) fun t ht => ⟨hd _ (List.getElem_mem _), ht⟩

theorem eyeJac_below {n m : ℕ} : ∀ r ∈ eyeJac m, AllBelow n r := by
  intro r hr t ht
  obtain ⟨i, -, rfl⟩ := List.mem_map.1 hr
  obtain ⟨j, -, rfl⟩ := List.mem_map.1 ht
  split <;> trivial

theorem untilLastCT_below {n m : ℕ} {lib : Lib} {rnd : ℤ} : ∀ {ls : List Layer} {as : List Act} {z : List Term} {J : List (List Term)} {z' J'},
    AllBelow n z → (∀ r ∈ J, AllBelow n r) → untilLastCT lib rnd m ls as z J = .ok (z', J') → AllBelow n z' ∧ ∀ r ∈ J', AllBelow n r
  | [], _, _, _, _, _, hz, hJ, h => by cases h; exact ⟨hz, hJ⟩
  | _ :: _, [], _, _, _, _, _, _, h => by cases h
  | l :: ls, a :: as, z, J, z', J', hz, hJ, h => by
    unfold untilLastCT at h
    obtain ⟨zw, h1, h⟩ := except_bind_ok h
    obtain ⟨zh, h2, h⟩ := except_bind_ok h
    obtain ⟨zz, h3, h⟩ := except_bind_ok h
    obtain ⟨JJ, h4, h⟩ := except_bind_ok h
    obtain ⟨d, h5, h⟩ := except_bind_ok h
    have b := addBias_below (matVec_below hz h1) h2
    exact untilLastCT_below (forwardSym_below b h3) (diagJac_below (derivativeSym_below b h5) (matJac_below hJ h4)) h

theorem untilLastDT_below {n : ℕ} {lib : Lib} {rnd : ℤ} : ∀ {ls : List Layer} {as : List Act} {z z' : List Term},
    AllBelow n z → untilLastDT lib rnd ls as z = .ok z' → AllBelow n z'
  | [], _, _, _, hz, h => by cases h; exact hz
  | _ :: _, [], _, _, _, h => by cases h
  | l :: ls, a :: as, z, z', hz, h => by
    unfold untilLastDT at h
    dsimp only at h
    split at h
    · cases h
    obtain ⟨zw, h1, h⟩ := except_bind_ok h
    obtain ⟨zh, h2, h⟩ := except_bind_ok h
    obtain ⟨zz, h3, h⟩ := except_bind_ok h
    exact untilLastDT_below (forwardSym_below (addBias_below (matVec_below hz h1) h2) h3) h

theorem factors_below {n : ℕ} {quad : Bool} {x : List Term} (hx : AllBelow n x) : termBelow n (factors quad x).1 ∧ AllBelow n (factors quad x).2 := by
  unfold factors
  split
  · exact ⟨termBelow_sum (map_below hx fun t ht => ht), map_below hx fun t ht => ⟨trivial, ht⟩⟩
  · exact ⟨trivial, map_below hx fun t ht => trivial⟩

theorem lastAffine_below {n : ℕ} {rnd : ℤ} {last : Layer} {z y : List Term} (hz : AllBelow n z) (h : lastAffine rnd last z = .ok y) : AllBelow n y := by
  unfold lastAffine at h
  split at h
  · cases h
  rename_i zw h1
  split at h
  · exact addBias_below (matVec_below hz h1) h
  · cases h; exact matVec_below hz h1

/-- The certificate formula and its derivative mention only state variables when the dynamics do. -/
theorem translateCT_below {n : ℕ} {lib : Lib} {rnd : ℤ} {quad : Bool} {net : Net} {x xdot : List Term} (hx : AllBelow n x) (hf : AllBelow n xdot) {V Vdot : Term}
    (h : translateCT lib rnd none quad net x xdot = .ok (V, Vdot)) : termBelow n V ∧ termBelow n Vdot := by
  unfold translateCT at h
  split at h
  · cases h
  split at h
  · cases h
  rename_i z J h1
  split at h
  · cases h
  rename_i zo h2
  split at h
  · cases h
  rename_i Jo h3
  obtain ⟨hz, hJ⟩ := untilLastCT_below hx eyeJac_below h1
  have hzo := lastAffine_below hz h2
  have hJo := matJac_below hJ h3
  have hE := factors_below (quad := quad) hx
  unfold assembleCT at h
  split at h
  · split at h
    · cases h
      have h0 := hzo _ (List.mem_singleton_self _)
      refine ⟨⟨h0, hE.1⟩, termBelow_sum (all_zipWith fun a ha b hb => ⟨?_, hf b hb⟩)⟩
      exact all_zipWith (f := fun gj dej => Term.add (.mul gj (factors quad x).1) (.mul dej _)) (fun g hg e he => ⟨⟨hJo _ (List.mem_singleton_self _) g hg, hE.1⟩, hE.2 e he, h0⟩) a ha
    · cases h
  · cases h

/-- The same in discrete time. -/
theorem translateDT_below {n : ℕ} {lib : Lib} {rnd : ℤ} {quad : Bool} {net : Net} {x xdot : List Term} (hx : AllBelow n x) (hf : AllBelow n xdot) {V Vdot : Term}
    (h : translateDT lib rnd quad net x xdot = .ok (V, Vdot)) : termBelow n V ∧ termBelow n Vdot := by
  unfold translateDT at h
  split at h
  · cases h
  obtain ⟨z, h1, h⟩ := except_bind_ok h
  obtain ⟨zn, h2, h⟩ := except_bind_ok h
  obtain ⟨zo, h3, h⟩ := except_bind_ok h
  obtain ⟨zno, h4, h⟩ := except_bind_ok h
  have b1 := lastAffine_below (untilLastDT_below hx h1) h3
  have b2 := lastAffine_below (untilLastDT_below hf h2) h4
  have hE := factors_below (quad := quad) hx
  split at h
  · have c1 := b1 _ (List.mem_singleton_self _)
    have c2 := b2 _ (List.mem_singleton_self _)
    dsimp only at h
    split at h <;> cases h <;> simp [termBelow, c1, c2, hE.1]
  · cases h

/-! ### so do the queries -/

/-- Every formula of the dictionary mentions only state variables. -/
def DomsBelow (n : ℕ) (d : Dict String Formula) : Prop := ∀ l φ, Dict.getE d l = .ok φ → formulaBelow n φ

theorem entries_below {lib : Lib} {n : ℕ} {doms : Dict String PySet} {d : Dict String Formula} (hd : domainEntries lib n doms = .ok d) : DomsBelow n d := by
  intro l φ hl
  obtain ⟨S, -, hφ⟩ := domainEntries_ne hd (getE_ok.1 hl)
  unfold domainFormula at hφ
  split at hφ
  · exact boundary_below (vars_below n) hφ
  · exact domain_below (vars_below n) hφ

theorem set_below {n : ℕ} {d : Dict String Formula} (hd : DomsBelow n d) {k : String} {φ : Formula} (hφ : formulaBelow n φ) : DomsBelow n (Dict.set d k φ) := by
  intro l ψ h
  rw [getE_ok] at h
  by_cases hl : l = k
  · subst hl
    rw [Dict.get?_set_self] at h
    cases h
    exact hφ
  · rw [Dict.get?_set, if_neg (Ne.symm hl)] at h
    exact hd l ψ (getE_ok.2 h)

theorem initialise_below {lib : Lib} {n : ℕ} {ct : CertType} {doms : Dict String PySet} {d : Dict String Formula} (h : initialiseDomains lib n ct doms = .ok d) : DomsBelow n d := by
  unfold initialiseDomains at h
  split at h
  · cases h
  rename_i d' hd
  split at h
  · obtain ⟨S, -, h⟩ := except_bind_ok h
    obtain ⟨φ, h1, h⟩ := except_bind_ok h
    cases h
    refine set_below (entries_below hd) ?_
    unfold PySet.generateComplement at h1
    obtain ⟨_, -, h1⟩ := except_bind_ok h1
    obtain ⟨ψ, h2, h1⟩ := except_bind_ok h1
    cases h1
    exact show formulaBelow n ψ from domain_below (vars_below n) h2
  · cases h
    exact entries_below hd

section
variable {n : ℕ} {d : Dict String Formula} (hd : DomsBelow n d)
include hd

theorem roa_below {llo : Bool} {β : ℚ} {V Vdot : Term} (hV : termBelow n V) (hW : termBelow n Vdot) {groups}
    (h : roaConstraints n llo β d V Vdot = .ok groups) : ∀ g ∈ groups, ∀ q ∈ g, formulaBelow n q.2 := by
  obtain ⟨init, h1, h⟩ := except_bind_ok h
  cases h
  have c1 := hd _ _ h1
  have hs : termBelow n (Term.sum ((vars n).map (.pow · 2))) := termBelow_sum (map_below (vars_below n) fun t ht => ht)
  intro g hg q hq
  simp only [List.mem_cons, List.not_mem_nil, or_false] at hg
  subst hg
  simp only [List.mem_cons, List.not_mem_nil, or_false] at hq
  subst hq
  cases llo <;> simp [formulaBelow, geZero, leZero, gtZero, termBelow, c1, hV, hW, hs]

theorem barrier_below {V Vdot : Term} (hV : termBelow n V) (hW : termBelow n Vdot) {groups}
    (h : barrierConstraints d V Vdot = .ok groups) : ∀ g ∈ groups, ∀ q ∈ g, formulaBelow n q.2 := by
  obtain ⟨dom, h1, h⟩ := except_bind_ok h
  obtain ⟨init, h2, h⟩ := except_bind_ok h
  obtain ⟨uns, h3, h⟩ := except_bind_ok h
  cases h
  have c1 := hd _ _ h1
  have c2 := hd _ _ h2
  have c3 := hd _ _ h3
  intro g hg q hq
  simp only [List.mem_cons, List.not_mem_nil, or_false] at hg
  rcases hg with rfl | rfl <;> simp only [List.mem_cons, List.not_mem_nil, or_false] at hq
  · rcases hq with rfl | rfl <;> simp [formulaBelow, geZero, leZero, termBelow, c1, c2, c3, hV]
  · subst hq
    simp [formulaBelow, geZero, termBelow, c1, hV, hW]

theorem rws_below {V Vdot : Term} (hV : termBelow n V) (hW : termBelow n Vdot) {groups}
    (h : rwsConstraints d V Vdot = .ok groups) : ∀ g ∈ groups, ∀ q ∈ g, formulaBelow n q.2 := by
  obtain ⟨dom, h1, h⟩ := except_bind_ok h
  obtain ⟨init, h2, h⟩ := except_bind_ok h
  obtain ⟨safe, h3, h⟩ := except_bind_ok h
  obtain ⟨border, h4, h⟩ := except_bind_ok h
  obtain ⟨goal, h5, h⟩ := except_bind_ok h
  cases h
  have c1 := hd _ _ h1
  have c2 := hd _ _ h2
  have c3 := hd _ _ h3
  have c4 := hd _ _ h4
  have c5 := hd _ _ h5
  intro g hg q hq
  simp only [List.mem_cons, List.not_mem_nil, or_false] at hg
  rcases hg with rfl | rfl <;> simp only [List.mem_cons, List.not_mem_nil, or_false] at hq
  · rcases hq with rfl | rfl <;> simp [formulaBelow, gtZero, leZero, termBelow, c1, c2, c4, hV]
  · subst hq
    simp [formulaBelow, Formula.conj, gtZero, leZero, termBelow, c3, c5, hV, hW]

/-- Every query of a single-network certificate mentions only state variables. -/
theorem single_below {ct : CertType} {llo : Bool} {β : ℚ} {V Vdot : Term} (hV : termBelow n V) (hW : termBelow n Vdot) {groups}
    (h : singleConstraints ct n llo β d V Vdot = .ok groups) : ∀ g ∈ groups, ∀ q ∈ g, formulaBelow n q.2 := by
  cases ct with
  | ROA => exact roa_below hd hV hW h
  | STABLESAFE | RAR | CUSTOM => cases h
  | RWA | RSWA | RWS | RSWS => exact rws_below hd hV hW h
  | BARRIER => exact barrier_below hd hV hW h
  | LYAPUNOV =>
    obtain ⟨dom, h1, h⟩ := except_bind_ok h
    cases h
    have c1 := hd _ _ h1
    have hs : formulaBelow n (Formula.conj ((vars n).map (fun x => .eq x (.const 0)))) := by
      refine formulaBelow_conj fun φ hφ => ?_
      obtain ⟨t, ht, rfl⟩ := List.mem_map.1 hφ
      exact ⟨vars_below n t ht, trivial⟩
    intro g hg q hq
    simp only [List.mem_cons, List.not_mem_nil, or_false] at hg
    subst hg
    simp only [List.mem_cons, List.not_mem_nil, or_false] at hq
    subst hq
    cases llo <;> simp [formulaBelow, geZero, leZero, termBelow, c1, hV, hW, hs]
  | BARRIERALT =>
    obtain ⟨dom, h1, h⟩ := except_bind_ok h
    obtain ⟨init, h2, h⟩ := except_bind_ok h
    obtain ⟨uns, h3, h⟩ := except_bind_ok h
    cases h
    have c1 := hd _ _ h1
    have c2 := hd _ _ h2
    have c3 := hd _ _ h3
    intro g hg q hq
    simp only [List.mem_cons, List.not_mem_nil, or_false] at hg
    rcases hg with rfl | rfl <;> simp only [List.mem_cons, List.not_mem_nil, or_false] at hq
    · rcases hq with rfl | rfl <;> simp [formulaBelow, geZero, leZero, termBelow, c1, c2, c3, hV]
    · subst hq
      simp [formulaBelow, gtZero, termBelow, c1, hW]

theorem stay_below {V Vdot : Term} (hV : termBelow n V) (hW : termBelow n Vdot) {β : ℚ} {q1 q2 : Formula} (h : stayQueries d V Vdot β = .ok (q1, q2)) :
    formulaBelow n q1 ∧ formulaBelow n q2 := by
  obtain ⟨safe, h1, h⟩ := except_bind_ok h
  obtain ⟨goal, h2, h⟩ := except_bind_ok h
  obtain ⟨border, h3, h⟩ := except_bind_ok h
  cases h
  simp [formulaBelow, gtZero, termBelow, hd _ _ h1, hd _ _ h2, hd _ _ h3, hV, hW]

end

theorem mem_set {α : Type _} {d : Dict String α} {k : String} {v : α} : ∀ e ∈ Dict.set d k v, e.2 = v ∨ e ∈ d := by
  induction d with
  | nil => intro e he; simp [Dict.set] at he; simp [he]
  | cons a d ih =>
    obtain ⟨k', v'⟩ := a
    intro e he
    unfold Dict.set at he
    split_ifs at he
    · rcases List.mem_cons.1 he with h | h
      · left; rw [h]
      · right; simp [h]
    · rcases List.mem_cons.1 he with h | h
      · right; simp [h]
      · rcases ih e h with h | h
        · exact Or.inl h
        · right; simp [h]

theorem mem_erase {α : Type _} {d : Dict String α} {k : String} : ∀ e ∈ Dict.erase d k, e ∈ d := by
  induction d with
  | nil => intro e he; cases he
  | cons a d ih =>
    intro e he
    unfold Dict.erase at he
    split_ifs at he
    · simp [he]
    · rcases List.mem_cons.1 he with h | h
      · simp [h]
      · simp [ih e h]

theorem relabel_mem {old new : String} {cs r : Dict String Formula} (h : relabel old new cs = .ok r) {P : Formula → Prop} (hP : ∀ q ∈ cs, P q.2) : ∀ q ∈ r, P q.2 := by
  obtain ⟨φ, h1, h⟩ := except_bind_ok h
  cases h
  intro q hq
  rcases mem_set q hq with e | hq
  · rw [e]; exact hP _ (Dict.get?_eq_some_mem (getE_ok.1 h1))
  · exact hP q (mem_erase q hq)

theorem relabelBarrier_below {n : ℕ} {gs r : List (Dict String Formula)} (h : relabelBarrier gs = .ok r) (hg : ∀ g ∈ gs, ∀ q ∈ g, formulaBelow n q.2) :
    ∀ g ∈ r, ∀ q ∈ g, formulaBelow n q.2 := by
  cases gs with
  | nil => cases h; simp
  | cons g gs =>
    obtain ⟨g1, h1, h⟩ := except_bind_ok h
    obtain ⟨g2, h2, h⟩ := except_bind_ok h
    obtain ⟨gs', h3, h⟩ := except_bind_ok h
    cases h
    intro k hk
    rcases List.mem_cons.1 hk with rfl | hk
    · exact relabel_mem h2 (relabel_mem h1 (hg g (by simp)))
    · obtain ⟨g', hm, hr⟩ := mapE_mem h3 k hk
      exact relabel_mem hr (hg g' (by simp [hm]))

theorem goalFinal_below {n : ℕ} {d d' : Dict String Formula} (hd : DomsBelow n d) (h : goalFinalDomains d = .ok d') : DomsBelow n d' := by
  obtain ⟨g, h1, h⟩ := except_bind_ok h
  obtain ⟨nf, h2, h⟩ := except_bind_ok h
  cases h
  exact set_below (set_below hd (hd _ _ h1)) (hd _ _ h2)

/-- Queries of a continuous-time single-network step. -/
theorem queriesCT_below {s : Setup} (hf : AllBelow s.nVars s.f) {groups} (h : queriesCT s = .ok groups) : ∀ g ∈ groups, ∀ q ∈ g, formulaBelow s.nVars q.2 := by
  unfold queriesCT at h
  obtain ⟨d, h1, h⟩ := except_bind_ok h
  obtain ⟨⟨V, W⟩, h2, h⟩ := except_bind_ok h
  obtain ⟨hV, hW⟩ := translateCT_below (vars_below _) hf h2
  exact single_below (initialise_below h1) hV hW h

/-- Queries of a discrete-time single-network step. -/
theorem queriesDT_below {s : Setup} (hf : AllBelow s.nVars s.f) {groups} (h : queriesDT s = .ok groups) : ∀ g ∈ groups, ∀ q ∈ g, formulaBelow s.nVars q.2 := by
  unfold queriesDT at h
  obtain ⟨d, h1, h⟩ := except_bind_ok h
  obtain ⟨⟨V, W⟩, h2, h⟩ := except_bind_ok h
  obtain ⟨hV, hW⟩ := translateDT_below (vars_below _) hf h2
  exact single_below (initialise_below h1) hV hW h

/-- Queries of a two-network step. -/
theorem queriesDouble_below {s : Setup} {barr : Net} (hf : AllBelow s.nVars s.f) {groups} (h : queriesDouble s barr = .ok groups) :
    ∀ g ∈ groups, ∀ q ∈ g, formulaBelow s.nVars q.2 := by
  unfold queriesDouble at h
  obtain ⟨d, h1, h⟩ := except_bind_ok h
  obtain ⟨⟨⟨V, W⟩, ⟨B, C⟩⟩, h2, h⟩ := except_bind_ok h
  unfold translateCTDouble at h2
  obtain ⟨⟨V', W'⟩, k1, h2⟩ := except_bind_ok h2
  obtain ⟨⟨B', C'⟩, k2, h2⟩ := except_bind_ok h2
  cases h2
  obtain ⟨hV, hW⟩ := translateCT_below (vars_below _) hf k1
  obtain ⟨hB, hC⟩ := translateCT_below (vars_below _) hf k2
  have hd := initialise_below h1
  dsimp only at h
  split at h
  · obtain ⟨l, h3, h⟩ := except_bind_ok h
    obtain ⟨b, h4, h⟩ := except_bind_ok h
    cases h
    intro g hg
    rcases List.mem_append.1 hg with hg | hg
    · exact roa_below hd hV hW h3 g hg
    · exact barrier_below hd hB hC h4 g hg
  · obtain ⟨r, h3, h⟩ := except_bind_ok h
    obtain ⟨d', h4, h⟩ := except_bind_ok h
    obtain ⟨b, h5, h⟩ := except_bind_ok h
    obtain ⟨b', h6, h⟩ := except_bind_ok h
    cases h
    intro g hg
    rcases List.mem_append.1 hg with hg | hg
    · exact rws_below hd hV hW h3 g hg
    · exact relabelBarrier_below h6 (barrier_below (goalFinal_below hd h4) hB hC h5) g hg
  · cases h

/-- The state part of an assignment. -/
def restrict (n : ℕ) (ρ : Env) : Pt n := fun i => ρ i

theorem restrict_env (n : ℕ) (ρ : Env) : ∀ i < n, (restrict n ρ).env i = ρ i := by
  intro i hi
  simp [restrict, Pt.env, hi]

namespace Spec

/-- Every solution of the formula has its state variables in `(-1000, 1000)`. -/
def Confined (n : ℕ) (φ : Formula) : Prop := ∀ ρ : Env, φ.holds ρ → ∀ i < n, -1000 < ρ i ∧ ρ i < 1000

/-- Shapes whose boundary formula describes points of the set. -/
def ClosedShape : PySet → Prop
  | .rectangle .. | .sphere .. | .ellipse .. => True
  | .torus _ _ _ ds => noSel ds
  | _ => False

/-- All configured sets lie inside `(-1000, 1000)ⁿ` (dReal's second-chance bound), and the set whose border is checked in the reach-and-stay search is a
rectangle, sphere, ellipse or torus. -/
def SmallSets (n : ℕ) (doms : Dict String PySet) : Prop :=
  ∀ e ∈ doms, (∀ p ∈ docSet n e.2, ∀ i, -1000 < p i ∧ p i < 1000) ∧ (e.1 = XGB → ClosedShape e.2)

end Spec

theorem boundary_in_set {lib : Lib} (hlib : lib = .z3 ∨ lib = .dreal) {n : ℕ} {S : PySet} (hw : WF n S) (hc : ClosedShape S) {φ : Formula}
    (h : S.generateBoundary lib (vars n) = .ok φ) (p : Pt n) (hp : φ.holds p.env) : p ∈ docSet n S := by
  obtain ⟨ψ, h1, h2⟩ := C21_domain_formula_denotes_set lib n S hw (by rcases hlib with h | h <;> simp [h, supports])
  rw [← h2]
  cases S with
  | rectangle lb ub ds =>
    obtain ⟨_, -, h⟩ := except_bind_ok h
    obtain ⟨_, -, h⟩ := except_bind_ok h
    obtain ⟨i, h0, h⟩ := except_bind_ok h
    obtain ⟨l, -, h⟩ := except_bind_ok h
    obtain ⟨u, -, h⟩ := except_bind_ok h
    cases h
    rw [h1] at h0
    cases h0
    exact hp.2
  | sphere c r ds =>
    obtain ⟨y, k1, h⟩ := except_bind_ok h
    obtain ⟨s, k2, h⟩ := except_bind_ok h
    cases h
    obtain ⟨y', k3, h1⟩ := except_bind_ok h1
    obtain ⟨s', k4, h1⟩ := except_bind_ok h1
    cases h1
    rw [k1] at k3
    cases k3
    have e : y.length = c.length := by
      rw [selectDims_vars hw.2.1] at k1
      cases k1
      rw [length_symCoords, hw.1]
    rw [e, k2] at k4
    cases k4
    exact le_of_eq hp
  | ellipse a c r ds =>
    obtain ⟨_, k0, h⟩ := except_bind_ok h
    obtain ⟨y, k1, h⟩ := except_bind_ok h
    obtain ⟨s, k2, h⟩ := except_bind_ok h
    cases h
    obtain ⟨_, -, h1⟩ := except_bind_ok h1
    obtain ⟨y', k3, h1⟩ := except_bind_ok h1
    obtain ⟨s', k4, h1⟩ := except_bind_ok h1
    cases h1
    rw [k1] at k3
    cases k3
    have e : y.length = c.length := by
      rw [selectDims_vars hw.2.2.1] at k1
      cases k1
      rw [length_symCoords, hw.1]
    rw [e, k2] at k4
    cases k4
    exact le_of_eq hp
  | torus c ro ri ds =>
    have hc : noSel ds := hc
    obtain ⟨_, -, h⟩ := except_bind_ok h
    obtain ⟨s, k2, h⟩ := except_bind_ok h
    cases h
    obtain ⟨y', k3, h1⟩ := except_bind_ok h1
    obtain ⟨_, -, h1⟩ := except_bind_ok h1
    obtain ⟨s', k4, h1⟩ := except_bind_ok h1
    cases h1
    have e : y' = vars n := by
      rcases hc with rfl | rfl <;> (cases k3; rfl)
    subst e
    have e : (vars n).length = c.length := by
      rw [hw.1]
      rcases hc with rfl | rfl <;> simp [vars, selCount]
    rw [e, k2] at k4
    cases k4
    have h0 : (0:ℝ) ≤ ri := by exact_mod_cast hw.2.2.1
    have hlt : (ri:ℝ) < ro := by exact_mod_cast hw.2.2.2
    have hp : s.eval p.env = ((ri ^ 2 : ℚ) : ℝ) ∨ s.eval p.env = ((ro ^ 2 : ℚ) : ℝ) := hp
    change ((ri ^ 2 : ℚ) : ℝ) ≤ s.eval p.env ∧ s.eval p.env ≤ ((ro ^ 2 : ℚ) : ℝ)
    push_cast at hp ⊢
    rcases hp with hp | hp <;> rw [hp] <;> constructor <;> nlinarith
  | _ => exact absurd hc id

section
variable {lib : Lib} (hlib : lib = .z3 ∨ lib = .dreal) {n : ℕ} {doms : Dict String PySet} (hw : WFDomains n doms) (hs : SmallSets n doms)
  {d : Dict String Formula} (hd : domainEntries lib n doms = .ok d)
include hlib hw hs hd

theorem entry_confined {l : String} (hb : isBorder l = false) {φ : Formula} (hl : Dict.getE d l = .ok φ) : Confined n φ := by
  obtain ⟨S, hS, hφ⟩ := domainEntries_ne hd (getE_ok.1 hl)
  simp only [domainFormula, hb] at hφ
  have hb' : formulaBelow n φ := domain_below (vars_below n) (show S.generateDomain lib (vars n) = .ok φ by simpa using hφ)
  intro ρ hρ i hi
  rw [formula_congr hb' (fun i hi => (restrict_env n ρ i hi).symm), entry_region hlib hw hd hb hl] at hρ
  simp only [region, hS] at hρ
  exact (hs _ (Dict.get?_eq_some_mem hS)).1 _ hρ ⟨i, hi⟩

theorem goal_border_confined {φ : Formula} (hl : Dict.getE d XGB = .ok φ) : Confined n φ := by
  obtain ⟨S, hS, hφ⟩ := domainEntries_ne hd (getE_ok.1 hl)
  have hφ : S.generateBoundary lib (vars n) = .ok φ := hφ
  have hm := Dict.get?_eq_some_mem hS
  intro ρ hρ i hi
  rw [formula_congr (boundary_below (vars_below n) hφ) (fun i hi => (restrict_env n ρ i hi).symm)] at hρ
  exact (hs _ hm).1 _ (boundary_in_set hlib (hw _ hm) ((hs _ hm).2 rfl) hφ _ hρ) ⟨i, hi⟩

/-- Every query of a single-network certificate other than ROA confines the state variables. -/
theorem single_confined {ct : CertType} (hc : ct ≠ .ROA) {llo : Bool} {β : ℚ} {V Vdot : Term} {groups}
    (h : singleConstraints ct n llo β d V Vdot = .ok groups) : ∀ g ∈ groups, ∀ q ∈ g, Confined n q.2 := by
  have E : ∀ {l : String} {φ : Formula}, Dict.getE d l = .ok φ → isBorder l = false → Confined n φ := fun hl hb => entry_confined hlib hw hs hd hb hl
  have rws : rwsConstraints d V Vdot = .ok groups → ∀ g ∈ groups, ∀ q ∈ g, Confined n q.2 := by
    intro h
    obtain ⟨dom, h1, h⟩ := except_bind_ok h
    obtain ⟨init, -, h⟩ := except_bind_ok h
    obtain ⟨safe, h2, h⟩ := except_bind_ok h
    obtain ⟨border, -, h⟩ := except_bind_ok h
    obtain ⟨goal, -, h⟩ := except_bind_ok h
    cases h
    have c1 := E h1 rfl
    have c2 := E h2 rfl
    intro g hg q hq ρ hρ
    simp only [List.mem_cons, List.not_mem_nil, or_false] at hg
    rcases hg with rfl | rfl <;> simp only [List.mem_cons, List.not_mem_nil, or_false] at hq
    · rcases hq with rfl | rfl
      · exact c1 ρ hρ.2
      · exact c1 ρ hρ.2
    · subst hq
      exact c2 ρ ((Formula.holds_conj _ _).1 hρ.1 safe (by simp))
  cases ct with
  | ROA => exact absurd rfl hc
  | STABLESAFE | RAR | CUSTOM => cases h
  | RWA | RSWA | RWS | RSWS => exact rws h
  | LYAPUNOV =>
    obtain ⟨dom, h1, h⟩ := except_bind_ok h
    cases h
    intro g hg q hq ρ hρ
    simp only [List.mem_cons, List.not_mem_nil, or_false] at hg
    subst hg
    simp only [List.mem_cons, List.not_mem_nil, or_false] at hq
    subst hq
    exact E h1 rfl ρ hρ.1
  | BARRIER | BARRIERALT =>
    obtain ⟨dom, h1, h⟩ := except_bind_ok h
    obtain ⟨init, -, h⟩ := except_bind_ok h
    obtain ⟨uns, -, h⟩ := except_bind_ok h
    cases h
    intro g hg q hq ρ hρ
    simp only [List.mem_cons, List.not_mem_nil, or_false] at hg
    rcases hg with rfl | rfl <;> simp only [List.mem_cons, List.not_mem_nil, or_false] at hq
    · rcases hq with rfl | rfl
      · exact E h1 rfl ρ hρ.2
      · exact E h1 rfl ρ hρ.2
    · subst hq
      exact E h1 rfl ρ hρ.2

/-- So do the two queries of the reach-and-stay search. -/
theorem stay_confined {V Vdot : Term} {β : ℚ} {q1 q2 : Formula} (h : stayQueries d V Vdot β = .ok (q1, q2)) : Confined n q1 ∧ Confined n q2 := by
  obtain ⟨safe, -, h⟩ := except_bind_ok h
  obtain ⟨goal, h1, h⟩ := except_bind_ok h
  obtain ⟨border, h2, h⟩ := except_bind_ok h
  cases h
  exact ⟨fun ρ hρ => goal_border_confined hlib hw hs hd h2 ρ hρ.2, fun ρ hρ => entry_confined hlib hw hs hd rfl h1 ρ hρ.1.1⟩

end

end Fossil
