import Verif.BSSN.Calculus
import Verif.Initial.PolyCheck

/-!
# Geometry of metrics whose components are polynomials in functions with a closed system of derivatives
-/
namespace Verif.Initial
open Verif.RefMetric Verif.BSSN Real
open scoped ContDiff

/-- Functions on `Ω` whose partial derivatives are polynomials in them. -/
structure Gens (Ω : Dom) where
  g : ℕ → Scal
  D : Fin 3 → ℕ → PE
  out : ∀ i, 16 ≤ i → ∀ x, g i x = 0
  sm : ∀ i, Sm Ω (g i)
  pd_g : ∀ k i, ∀ x ∈ Ω, pd k (g i) x = (D k i).ev fun j => g j x

namespace Gens
variable {Ω : Dom} (𝒢 : Gens Ω)

/-- The values of the functions at a point. -/
def at' (x : Vec) : ℕ → ℝ := fun j => 𝒢.g j x

theorem out' (x : Vec) : ∀ i, 16 ≤ i → 𝒢.at' x i = 0 := fun i hi => 𝒢.out i hi x

theorem smooth (e : PE) : Sm Ω fun x => e.ev (𝒢.at' x) := by
  induction e with
  | k n d => exact Sm.const _
  | v i => exact 𝒢.sm i
  | add a b ha hb => exact ha.add hb
  | sub a b ha hb => exact ha.sub hb
  | mul a b ha hb => exact ha.mul hb
  | pw a n ha => exact ha.pow n

theorem pd_pow {x : Vec} (hx : x ∈ Ω) (k : Fin 3) {f : Scal} (hf : Sm Ω f) (n : ℕ) :
    pd k (fun y => f y ^ n) x = n * f x ^ (n - 1) * pd k f x := by
  induction n with
  | zero => simpa using dpd_const (x := x) k (1 : ℝ)
  | succ n ih =>
    simp only [pow_succ]
    rw [dpd_mul hx k (hf.pow n) hf, ih]
    rcases n with _ | n
    · simp
    · simp only [Nat.add_sub_cancel]
      push_cast
      ring

theorem pd_ev (k : Fin 3) (e : PE) {x : Vec} (hx : x ∈ Ω) : pd k (fun y => e.ev (𝒢.at' y)) x = (e.der (𝒢.D k)).ev (𝒢.at' x) := by
  induction e with
  | k n d => exact (dpd_const k _).trans (by simp [PE.der, PE.ev])
  | v i => exact 𝒢.pd_g k i x hx
  | add a b ha hb => exact (dpd_add hx k (𝒢.smooth a) (𝒢.smooth b)).trans (by rw [ha, hb]; rfl)
  | sub a b ha hb => exact (dpd_sub hx k (𝒢.smooth a) (𝒢.smooth b)).trans (by rw [ha, hb]; rfl)
  | mul a b ha hb => exact (dpd_mul hx k (𝒢.smooth a) (𝒢.smooth b)).trans (by rw [ha, hb]; rfl)
  | pw a n ha => exact (pd_pow hx k (𝒢.smooth a) n).trans (by rw [ha]; simp [PE.der, PE.ev])

/-- `f` is the polynomial `e` on `Ω`. -/
def Is (f : Scal) (e : PE) : Prop := ∀ x ∈ Ω, f x = e.ev (𝒢.at' x)

variable {𝒢}

theorem Is.pd {f : Scal} {e : PE} (h : 𝒢.Is f e) (k : Fin 3) : 𝒢.Is (pd k f) (e.der (𝒢.D k)) := fun x hx => by
  rw [pd_congr_on h hx k, 𝒢.pd_ev k e hx]

theorem Is.sm {f : Scal} {e : PE} (h : 𝒢.Is f e) : Sm Ω f := (𝒢.smooth e).congr h

end Gens

/-! ### Equations between polynomials, at one point -/

section
variable (D : Fin 3 → ℕ → PE) (G I : Fin 3 → Fin 3 → PE) (Γ : Fin 3 → Fin 3 → Fin 3 → PE) (Ric K U T : Fin 3 → Fin 3 → PE)
  (t a : PE) (b : Fin 3 → PE) (ρ : ℕ → ℝ)

/-- `I` is the inverse of `G`. -/
def InvEq (i j : Fin 3) : Prop := ∑ m, (G i m).ev ρ * (I m j).ev ρ = if i = j then 1 else 0

/-- `Γ` is the connection of `G`. -/
def ChrEq (i j k : Fin 3) : Prop :=
  ∑ m, 1 / 2 * (I i m).ev ρ * (((G m k).der (D j)).ev ρ + ((G m j).der (D k)).ev ρ - ((G j k).der (D m)).ev ρ) = (Γ i j k).ev ρ

/-- `Ric` is the Ricci tensor of `Γ`. -/
def RicEq (j l : Fin 3) : Prop :=
  ∑ k, (((Γ k l j).der (D k)).ev ρ - ((Γ k k j).der (D l)).ev ρ +
    ∑ m, ((Γ k k m).ev ρ * (Γ m l j).ev ρ - (Γ k l m).ev ρ * (Γ m k j).ev ρ)) = (Ric j l).ev ρ

/-- `t` is the trace of `K`. -/
def TrEq : Prop := ∑ i, ∑ j, (I i j).ev ρ * (K i j).ev ρ = t.ev ρ

/-- `U` is `K` with indices up. -/
def UpEq (i j : Fin 3) : Prop := ∑ k, ∑ l, (I i k).ev ρ * (I j l).ev ρ * (K k l).ev ρ = (U i j).ev ρ

/-- `T` is `U - I t`. -/
def TEq (i j : Fin 3) : Prop := (U i j).ev ρ - (I i j).ev ρ * t.ev ρ = (T i j).ev ρ

/-- The Hamiltonian constraint. -/
def HamEq : Prop := ∑ i, ∑ j, (I i j).ev ρ * (Ric i j).ev ρ + t.ev ρ ^ 2 - ∑ i, ∑ j, (K i j).ev ρ * (U i j).ev ρ = 0

/-- The momentum constraint. -/
def MomEq (i : Fin 3) : Prop :=
  ∑ j, (((T i j).der (D j)).ev ρ + ∑ m, ((Γ i j m).ev ρ * (T m j).ev ρ + (Γ j j m).ev ρ * (T i m).ev ρ)) = 0

/-- The metric is stationary. -/
def GdotEq (i j : Fin 3) : Prop :=
  -2 * a.ev ρ * (K i j).ev ρ + ∑ k, ((b k).ev ρ * ((G i j).der (D k)).ev ρ + (G k j).ev ρ * ((b k).der (D i)).ev ρ +
    (G i k).ev ρ * ((b k).der (D j)).ev ρ) = 0

/-- The extrinsic curvature is stationary. -/
def KdotEq (i j : Fin 3) : Prop :=
  -(((a.der (D j)).der (D i)).ev ρ - ∑ k, (Γ k i j).ev ρ * (a.der (D k)).ev ρ) +
    a.ev ρ * ((Ric i j).ev ρ + t.ev ρ * (K i j).ev ρ - 2 * ∑ k, ∑ l, (K i k).ev ρ * (I k l).ev ρ * (K l j).ev ρ) +
    ∑ k, ((b k).ev ρ * ((K i j).der (D k)).ev ρ + (K k j).ev ρ * ((b k).der (D i)).ev ρ + (K i k).ev ρ * ((b k).der (D j)).ev ρ) = 0

end

/-! ### The same equations, as polynomials that must vanish -/

namespace PE

/-- A sum over the three indices. -/
def sum3 (f : Fin 3 → PE) : PE := add (f 0) (add (f 1) (f 2))

theorem ev_sum3 (ρ : ℕ → ℝ) (f : Fin 3 → PE) : (sum3 f).ev ρ = ∑ i, (f i).ev ρ := by
  simp only [sum3, ev, Fin.sum_univ_three]
  ring

section
variable (D : Fin 3 → ℕ → PE) (G I : Fin 3 → Fin 3 → PE) (Γ : Fin 3 → Fin 3 → Fin 3 → PE) (Ric K U T : Fin 3 → Fin 3 → PE)
  (t a : PE) (b : Fin 3 → PE) {ρ : ℕ → ℝ}

def invE (i j : Fin 3) : PE := sub (sum3 fun m => mul (G i m) (I m j)) (bif i == j then k 1 1 else k 0 1)

def chrE (i j l : Fin 3) : PE :=
  sub (sum3 fun m => mul (mul (k 1 2) (I i m)) (sub (add ((G m l).der (D j)) ((G m j).der (D l))) ((G j l).der (D m)))) (Γ i j l)

def ricE (j l : Fin 3) : PE :=
  sub (sum3 fun m => add (sub ((Γ m l j).der (D m)) ((Γ m m j).der (D l)))
    (sum3 fun n => sub (mul (Γ m m n) (Γ n l j)) (mul (Γ m l n) (Γ n m j)))) (Ric j l)

def trE : PE := sub (sum3 fun i => sum3 fun j => mul (I i j) (K i j)) t

def upE (i j : Fin 3) : PE := sub (sum3 fun m => sum3 fun l => mul (mul (I i m) (I j l)) (K m l)) (U i j)

def tE (i j : Fin 3) : PE := sub (sub (U i j) (mul (I i j) t)) (T i j)

def hamE : PE :=
  sub (add (sum3 fun i => sum3 fun j => mul (I i j) (Ric i j)) (pw t 2)) (sum3 fun i => sum3 fun j => mul (K i j) (U i j))

def momE (i : Fin 3) : PE :=
  sum3 fun j => add ((T i j).der (D j)) (sum3 fun m => add (mul (Γ i j m) (T m j)) (mul (Γ j j m) (T i m)))

def lieE (X : Fin 3 → Fin 3 → PE) (i j : Fin 3) : PE :=
  sum3 fun m => add (add (mul (b m) ((X i j).der (D m))) (mul (X m j) ((b m).der (D i)))) (mul (X i m) ((b m).der (D j)))

def gdotE (i j : Fin 3) : PE := add (mul (mul (k (-2) 1) a) (K i j)) (lieE D b G i j)

def kdotE (i j : Fin 3) : PE :=
  add (add (sub (k 0 1) (sub ((a.der (D j)).der (D i)) (sum3 fun m => mul (Γ m i j) (a.der (D m)))))
    (mul a (sub (add (Ric i j) (mul t (K i j))) (mul (k 2 1) (sum3 fun m => sum3 fun l => mul (mul (K i m) (I m l)) (K l j))))))
    (lieE D b K i j)

theorem invEq {i j : Fin 3} (h : (invE G I i j).ev ρ = 0) : InvEq G I ρ i j := by
  simp only [invE, ev, ev_sum3] at h
  rw [InvEq]
  by_cases e : i = j
  · rw [show (i == j) = true by simpa using e] at h
    simp only [cond_true, ev] at h
    rw [if_pos e, sub_eq_zero.1 h]
    norm_num
  · rw [show (i == j) = false by simpa using e] at h
    simp only [cond_false, ev] at h
    rw [if_neg e, sub_eq_zero.1 h]
    norm_num

theorem chrEq {i j l : Fin 3} (h : (chrE D G I Γ i j l).ev ρ = 0) : ChrEq D G I Γ ρ i j l := by
  simp only [chrE, ev, ev_sum3] at h
  rw [ChrEq, ← sub_eq_zero, ← h]
  norm_num

theorem ricEq {j l : Fin 3} (h : (ricE D Γ Ric j l).ev ρ = 0) : RicEq D Γ Ric ρ j l := by
  simp only [ricE, ev, ev_sum3] at h
  rw [RicEq, ← sub_eq_zero, ← h]

theorem trEq (h : (trE I K t).ev ρ = 0) : TrEq I K t ρ := by
  simp only [trE, ev, ev_sum3] at h
  rw [TrEq, ← sub_eq_zero, ← h]

theorem upEq {i j : Fin 3} (h : (upE I K U i j).ev ρ = 0) : UpEq I K U ρ i j := by
  simp only [upE, ev, ev_sum3] at h
  rw [UpEq, ← sub_eq_zero, ← h]

theorem tEq {i j : Fin 3} (h : (tE I U T t i j).ev ρ = 0) : TEq I U T t ρ i j := by
  simp only [tE, ev] at h
  rw [TEq, ← sub_eq_zero, ← h]

theorem hamEq (h : (hamE I Ric K U t).ev ρ = 0) : HamEq I Ric K U t ρ := by
  simp only [hamE, ev, ev_sum3] at h
  rw [HamEq, ← h]

theorem momEq {i : Fin 3} (h : (momE D Γ T i).ev ρ = 0) : MomEq D Γ T ρ i := by
  simp only [momE, ev, ev_sum3] at h
  rw [MomEq, ← h]

theorem gdotEq {i j : Fin 3} (h : (gdotE D G K a b i j).ev ρ = 0) : GdotEq D G K a b ρ i j := by
  simp only [gdotE, lieE, ev, ev_sum3] at h
  rw [GdotEq, ← h]
  norm_num

theorem kdotEq {i j : Fin 3} (h : (kdotE D I Γ Ric K t a b i j).ev ρ = 0) : KdotEq D I Γ Ric K t a b ρ i j := by
  simp only [kdotE, lieE, ev, ev_sum3] at h
  rw [KdotEq, ← h]
  norm_num

end

/-- Tables of polynomials, zero outside. -/
def tab1 (l : List PE) (i : ℕ) : PE := l.getD i (k 0 1)
def tab2 (l : List (List PE)) (i j : Fin 3) : PE := (l.getD i []).getD j (k 0 1)
def tab3 (l : List (List (List PE))) (i j m : Fin 3) : PE := ((l.getD i []).getD j []).getD m (k 0 1)

end PE

/-- A metric with its inverse, connection and Ricci tensor, as polynomials. -/
structure Geo {Ω : Dom} (𝒢 : Gens Ω) (g : T2) where
  G : Fin 3 → Fin 3 → PE
  I : Fin 3 → Fin 3 → PE
  Γ : Fin 3 → Fin 3 → Fin 3 → PE
  Ric : Fin 3 → Fin 3 → PE
  hG : ∀ i j, 𝒢.Is (g i j) (G i j)
  hI : ∀ x ∈ Ω, ∀ i j, InvEq G I (𝒢.at' x) i j
  hΓ : ∀ x ∈ Ω, ∀ i j k, ChrEq 𝒢.D G I Γ (𝒢.at' x) i j k
  hRic : ∀ x ∈ Ω, ∀ j l, RicEq 𝒢.D Γ Ric (𝒢.at' x) j l

namespace Geo
variable {Ω : Dom} {𝒢 : Gens Ω} {g : T2} (Q : Geo 𝒢 g)
include Q

theorem inverse (i j : Fin 3) : 𝒢.Is (inverse g i j) (Q.I i j) := fun x hx => by
  have h : (Matrix.of fun a b => g a b x) * (Matrix.of fun a b => (Q.I a b).ev (𝒢.at' x)) = 1 := by
    ext i j
    rw [Matrix.mul_apply, Matrix.one_apply, ← show _ = _ from Q.hI x hx i j]
    simp [Q.hG _ _ x hx]
  show (Matrix.of fun a b => g a b x)⁻¹ i j = _
  rw [Matrix.inv_eq_right_inv h]
  rfl

theorem christoffel (i j k : Fin 3) : 𝒢.Is (christoffel g i j k) (Q.Γ i j k) := fun x hx => by
  rw [← show _ = _ from Q.hΓ x hx i j k]
  simp only [BSSN.christoffel]
  refine Finset.sum_congr rfl fun m _ => ?_
  rw [Q.inverse i m x hx, (Q.hG m k).pd j x hx, (Q.hG m j).pd k x hx, (Q.hG j k).pd m x hx]

theorem ricci (i j : Fin 3) : 𝒢.Is (ricci g i j) (Q.Ric i j) := fun x hx => by
  rw [← show _ = _ from Q.hRic x hx i j]
  simp only [BSSN.ricci, ricciOf, riemannOf]
  refine Finset.sum_congr rfl fun m _ => ?_
  rw [(Q.christoffel m j i).pd m x hx, (Q.christoffel m m i).pd j x hx]
  congr 1
  refine Finset.sum_congr rfl fun n _ => ?_
  rw [Q.christoffel m m n x hx, Q.christoffel n j i x hx, Q.christoffel m j n x hx, Q.christoffel n m i x hx]

end Geo

/-- Extrinsic curvature with its trace and `K^{ij} - γ^{ij} K`, lapse and shift, as polynomials. -/
structure Slice {Ω : Dom} (𝒢 : Gens Ω) (g K : T2) (α : Scal) (β : T1) extends Geo 𝒢 g where
  Kp : Fin 3 → Fin 3 → PE
  t : PE
  U : Fin 3 → Fin 3 → PE
  T : Fin 3 → Fin 3 → PE
  a : PE
  b : Fin 3 → PE
  hK : ∀ i j, 𝒢.Is (K i j) (Kp i j)
  ha : 𝒢.Is α a
  hb : ∀ i, 𝒢.Is (β i) (b i)
  ht : ∀ x ∈ Ω, TrEq I Kp t (𝒢.at' x)
  hU : ∀ x ∈ Ω, ∀ i j, UpEq I Kp U (𝒢.at' x) i j
  hT : ∀ x ∈ Ω, ∀ i j, TEq I U T t (𝒢.at' x) i j
  ham : ∀ x ∈ Ω, HamEq I Ric Kp U t (𝒢.at' x)
  mom : ∀ x ∈ Ω, ∀ i, MomEq 𝒢.D Γ T (𝒢.at' x) i
  gdot : ∀ x ∈ Ω, ∀ i j, GdotEq 𝒢.D G Kp a b (𝒢.at' x) i j
  kdot : ∀ x ∈ Ω, ∀ i j, KdotEq 𝒢.D I Γ Ric Kp t a b (𝒢.at' x) i j

namespace Slice
variable {Ω : Dom} {𝒢 : Gens Ω} {g K : T2} {α : Scal} {β : T1} (Q : Slice 𝒢 g K α β)
include Q

theorem trace : 𝒢.Is (trace g K) Q.t := fun x hx => by
  rw [← show _ = _ from Q.ht x hx]
  simp only [BSSN.trace, Q.inverse _ _ x hx, Q.hK _ _ x hx]

theorem raise (i j : Fin 3) : 𝒢.Is (raise2 g K i j) (Q.U i j) := fun x hx => by
  rw [← show _ = _ from Q.hU x hx i j]
  simp only [raise2, Q.inverse _ _ x hx, Q.hK _ _ x hx]

theorem hamiltonian {x : Vec} (hx : x ∈ Ω) : hamiltonian g K .vacuum x = 0 := by
  simp only [BSSN.hamiltonian, scalarCurvature, Q.inverse _ _ x hx, Q.ricci _ _ x hx, Q.trace x hx, Q.raise _ _ x hx, Q.hK _ _ x hx,
    Matter.vacuum, mul_zero, sub_zero]
  exact Q.ham x hx

theorem momentum {x : Vec} (hx : x ∈ Ω) (i : Fin 3) : momentum g K .vacuum i x = 0 := by
  have h : ∀ i j, 𝒢.Is (fun y => raise2 g K i j y - BSSN.inverse g i j y * BSSN.trace g K y) (Q.T i j) := fun i j y hy => by
    show raise2 g K i j y - BSSN.inverse g i j y * BSSN.trace g K y = _
    rw [← show _ = _ from Q.hT y hy i j, Q.raise i j y hy, Q.inverse i j y hy, Q.trace y hy]
  simp only [BSSN.momentum, divergence, Matter.vacuum, mul_zero, sub_zero, Finset.sum_const_zero]
  rw [← show _ = _ from Q.mom x hx i]
  refine Finset.sum_congr rfl fun j _ => ?_
  rw [(h i j).pd j x hx]
  congr 1
  refine Finset.sum_congr rfl fun m _ => ?_
  rw [Q.christoffel i j m x hx, Q.christoffel j j m x hx, ← h m j x hx, ← h i m x hx]

theorem lie {T : T2} {e : Fin 3 → Fin 3 → PE} (h : ∀ i j, 𝒢.Is (T i j) (e i j)) {x : Vec} (hx : x ∈ Ω) (i j : Fin 3) :
    lieDD β T i j x = ∑ k, ((Q.b k).ev (𝒢.at' x) * ((e i j).der (𝒢.D k)).ev (𝒢.at' x) +
      (e k j).ev (𝒢.at' x) * ((Q.b k).der (𝒢.D i)).ev (𝒢.at' x) + (e i k).ev (𝒢.at' x) * ((Q.b k).der (𝒢.D j)).ev (𝒢.at' x)) := by
  simp only [lieDD]
  refine Finset.sum_congr rfl fun k _ => ?_
  rw [(h i j).pd k x hx, (Q.hb k).pd i x hx, (Q.hb k).pd j x hx, Q.hb k x hx, h k j x hx, h i k x hx]

theorem gamma {x : Vec} (hx : x ∈ Ω) (i j : Fin 3) : admGammaRhs g K α β i j x = 0 := by
  rw [admGammaRhs, Q.lie Q.hG hx, Q.ha x hx, Q.hK i j x hx]
  exact Q.gdot x hx i j

theorem k {x : Vec} (hx : x ∈ Ω) (i j : Fin 3) : admKRhs g K α β .vacuum i j x = 0 := by
  have hz : BSSN.trace g (fun _ _ _ => 0) x = 0 := by simp [BSSN.trace]
  simp only [admKRhs, Matter.vacuum, hz, mul_zero, sub_zero, hessian]
  rw [Q.lie Q.hK hx, (Q.ha.pd j).pd i x hx, Q.ricci i j x hx]
  simp only [Q.trace x hx, Q.ha x hx, Q.hK _ _ x hx, Q.inverse _ _ x hx, Q.christoffel _ _ _ x hx, Q.ha.pd _ x hx]
  exact Q.kdot x hx i j

end Slice

end Verif.Initial
