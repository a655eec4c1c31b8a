import Verif.Initial.Jets

/-!
# Polynomial identities for the static trumpet

The functions are `r`, `1/r`, `1/(r+M)`, `sin θ`, `cos θ`, `1/sin θ` and the constant `M`.

Generated by a small computer algebra program outside this project; the kernel checks every identity.
-/
set_option maxRecDepth 100000
set_option linter.all false
namespace Verif.Initial.Trumpet
open PE

def D0 : List PE := [(k 1 1),
  (mul (k (-1) 1) (pw (v 1) 2)),
  (mul (k (-1) 1) (pw (v 2) 2)),
  (k 0 1),
  (k 0 1),
  (k 0 1),
  (k 0 1)]
def D1 : List PE := [(k 0 1),
  (k 0 1),
  (k 0 1),
  (v 4),
  (mul (k (-1) 1) (v 3)),
  (mul (k (-1) 1) (mul (v 4) (pw (v 5) 2))),
  (k 0 1)]
def D2 : List PE := [(k 0 1),
  (k 0 1),
  (k 0 1),
  (k 0 1),
  (k 0 1),
  (k 0 1),
  (k 0 1)]
def D (i : Fin 3) : ℕ → PE := tab1 ([D0, D1, D2].getD i [])

def G000 : PE := (add (k 1 1) (add (mul (k 2 1) (mul (v 1) (v 6))) (mul (pw (v 1) 2) (pw (v 6) 2))))
def G001 : PE := (k 0 1)
def G002 : PE := (k 0 1)
def G010 : PE := (k 0 1)
def G011 : PE := (add (pw (v 0) 2) (add (mul (mul (k 2 1) (pw (v 0) 2)) (mul (v 1) (v 6))) (mul (pw (v 0) 2) (mul (pw (v 1) 2) (pw (v 6) 2)))))
def G012 : PE := (k 0 1)
def G020 : PE := (k 0 1)
def G021 : PE := (k 0 1)
def G022 : PE := (add (mul (pw (v 0) 2) (pw (v 3) 2)) (add (mul (mul (k 2 1) (pw (v 0) 2)) (mul (v 1) (mul (pw (v 3) 2) (v 6)))) (mul (mul (pw (v 0) 2) (pw (v 1) 2)) (mul (pw (v 3) 2) (pw (v 6) 2)))))
def G0 : Fin 3 → Fin 3 → PE := tab2 [[G000, G001, G002], [G010, G011, G012], [G020, G021, G022]]

def K000 : PE := (mul (k (-1) 1) (mul (pw (v 1) 2) (v 6)))
def K001 : PE := (k 0 1)
def K002 : PE := (k 0 1)
def K010 : PE := (k 0 1)
def K011 : PE := (v 6)
def K012 : PE := (k 0 1)
def K020 : PE := (k 0 1)
def K021 : PE := (k 0 1)
def K022 : PE := (mul (pw (v 3) 2) (v 6))
def K0 : Fin 3 → Fin 3 → PE := tab2 [[K000, K001, K002], [K010, K011, K012], [K020, K021, K022]]

def G00 : PE := (add (k 1 1) (add (mul (k 2 1) (mul (v 1) (v 6))) (mul (pw (v 1) 2) (pw (v 6) 2))))
def G01 : PE := (k 0 1)
def G02 : PE := (k 0 1)
def G10 : PE := (k 0 1)
def G11 : PE := (add (pw (v 0) 2) (add (mul (k 2 1) (mul (v 0) (v 6))) (pw (v 6) 2)))
def G12 : PE := (k 0 1)
def G20 : PE := (k 0 1)
def G21 : PE := (k 0 1)
def G22 : PE := (add (add (pw (v 0) 2) (add (mul (k 2 1) (mul (v 0) (v 6))) (pw (v 6) 2))) (add (mul (k (-1) 1) (mul (pw (v 0) 2) (pw (v 4) 2))) (add (mul (mul (k (-2) 1) (v 0)) (mul (pw (v 4) 2) (v 6))) (mul (k (-1) 1) (mul (pw (v 4) 2) (pw (v 6) 2))))))
def G : Fin 3 → Fin 3 → PE := tab2 [[G00, G01, G02], [G10, G11, G12], [G20, G21, G22]]

def I00 : PE := (add (k 1 1) (add (mul (k (-2) 1) (mul (v 2) (v 6))) (mul (pw (v 2) 2) (pw (v 6) 2))))
def I01 : PE := (k 0 1)
def I02 : PE := (k 0 1)
def I10 : PE := (k 0 1)
def I11 : PE := (pw (v 2) 2)
def I12 : PE := (k 0 1)
def I20 : PE := (k 0 1)
def I21 : PE := (k 0 1)
def I22 : PE := (mul (pw (v 2) 2) (pw (v 5) 2))
def I : Fin 3 → Fin 3 → PE := tab2 [[I00, I01, I02], [I10, I11, I12], [I20, I21, I22]]

def Γ000 : PE := (add (mul (k (-1) 1) (v 1)) (v 2))
def Γ001 : PE := (k 0 1)
def Γ002 : PE := (k 0 1)
def Γ010 : PE := (k 0 1)
def Γ011 : PE := (add (mul (k (-1) 1) (v 0)) (add (v 6) (mul (k (-1) 1) (mul (v 2) (pw (v 6) 2)))))
def Γ012 : PE := (k 0 1)
def Γ020 : PE := (k 0 1)
def Γ021 : PE := (k 0 1)
def Γ022 : PE := (add (add (mul (k (-1) 1) (v 0)) (add (v 6) (mul (v 0) (pw (v 4) 2)))) (add (mul (k (-1) 1) (mul (v 2) (pw (v 6) 2))) (add (mul (k (-1) 1) (mul (pw (v 4) 2) (v 6))) (mul (v 2) (mul (pw (v 4) 2) (pw (v 6) 2))))))
def Γ100 : PE := (k 0 1)
def Γ101 : PE := (v 2)
def Γ102 : PE := (k 0 1)
def Γ110 : PE := (v 2)
def Γ111 : PE := (k 0 1)
def Γ112 : PE := (k 0 1)
def Γ120 : PE := (k 0 1)
def Γ121 : PE := (k 0 1)
def Γ122 : PE := (mul (k (-1) 1) (mul (v 3) (v 4)))
def Γ200 : PE := (k 0 1)
def Γ201 : PE := (k 0 1)
def Γ202 : PE := (v 2)
def Γ210 : PE := (k 0 1)
def Γ211 : PE := (k 0 1)
def Γ212 : PE := (mul (v 4) (v 5))
def Γ220 : PE := (v 2)
def Γ221 : PE := (mul (v 4) (v 5))
def Γ222 : PE := (k 0 1)
def Γ : Fin 3 → Fin 3 → Fin 3 → PE := tab3 [[[Γ000, Γ001, Γ002], [Γ010, Γ011, Γ012], [Γ020, Γ021, Γ022]], [[Γ100, Γ101, Γ102], [Γ110, Γ111, Γ112], [Γ120, Γ121, Γ122]], [[Γ200, Γ201, Γ202], [Γ210, Γ211, Γ212], [Γ220, Γ221, Γ222]]]

def Ric00 : PE := (add (mul (k (-2) 1) (mul (v 1) (v 2))) (mul (k 2 1) (pw (v 2) 2)))
def Ric01 : PE := (k 0 1)
def Ric02 : PE := (k 0 1)
def Ric10 : PE := (k 0 1)
def Ric11 : PE := (mul (v 2) (v 6))
def Ric12 : PE := (k 0 1)
def Ric20 : PE := (k 0 1)
def Ric21 : PE := (k 0 1)
def Ric22 : PE := (add (mul (v 2) (v 6)) (mul (mul (k (-1) 1) (v 2)) (mul (pw (v 4) 2) (v 6))))
def Ric : Fin 3 → Fin 3 → PE := tab2 [[Ric00, Ric01, Ric02], [Ric10, Ric11, Ric12], [Ric20, Ric21, Ric22]]

def K00 : PE := (mul (k (-1) 1) (mul (pw (v 1) 2) (v 6)))
def K01 : PE := (k 0 1)
def K02 : PE := (k 0 1)
def K10 : PE := (k 0 1)
def K11 : PE := (v 6)
def K12 : PE := (k 0 1)
def K20 : PE := (k 0 1)
def K21 : PE := (k 0 1)
def K22 : PE := (add (v 6) (mul (k (-1) 1) (mul (pw (v 4) 2) (v 6))))
def K : Fin 3 → Fin 3 → PE := tab2 [[K00, K01, K02], [K10, K11, K12], [K20, K21, K22]]

def U00 : PE := (add (mul (k (-1) 1) (mul (pw (v 2) 2) (v 6))) (add (mul (k 2 1) (mul (pw (v 2) 3) (pw (v 6) 2))) (mul (k (-1) 1) (mul (pw (v 2) 4) (pw (v 6) 3)))))
def U01 : PE := (k 0 1)
def U02 : PE := (k 0 1)
def U10 : PE := (k 0 1)
def U11 : PE := (mul (pw (v 2) 4) (v 6))
def U12 : PE := (k 0 1)
def U20 : PE := (k 0 1)
def U21 : PE := (k 0 1)
def U22 : PE := (mul (pw (v 2) 4) (mul (pw (v 5) 2) (v 6)))
def U : Fin 3 → Fin 3 → PE := tab2 [[U00, U01, U02], [U10, U11, U12], [U20, U21, U22]]

def T00 : PE := (add (mul (k (-2) 1) (mul (pw (v 2) 2) (v 6))) (add (mul (k 4 1) (mul (pw (v 2) 3) (pw (v 6) 2))) (mul (k (-2) 1) (mul (pw (v 2) 4) (pw (v 6) 3)))))
def T01 : PE := (k 0 1)
def T02 : PE := (k 0 1)
def T10 : PE := (k 0 1)
def T11 : PE := (k 0 1)
def T12 : PE := (k 0 1)
def T20 : PE := (k 0 1)
def T21 : PE := (k 0 1)
def T22 : PE := (k 0 1)
def T : Fin 3 → Fin 3 → PE := tab2 [[T00, T01, T02], [T10, T11, T12], [T20, T21, T22]]

def t : PE := (mul (pw (v 2) 2) (v 6))
def a : PE := (mul (v 0) (v 2))
def b (i : Fin 3) : PE := tab1 [(mul (v 0) (mul (pw (v 2) 2) (v 6))),
  (k 0 1),
  (k 0 1)] i
def rels : List PE := [(add (k (-1) 1) (mul (v 0) (v 1))),
  (add (k (-1) 1) (add (mul (v 0) (v 2)) (mul (v 2) (v 6)))),
  (add (k (-1) 1) (add (pw (v 3) 2) (pw (v 4) 2))),
  (add (k (-1) 1) (mul (v 3) (v 5)))]
def gb : List PE := [(add (k (-1) 1) (mul (v 0) (v 1))),
  (add (k (-1) 1) (add (mul (v 0) (v 2)) (mul (v 2) (v 6)))),
  (add (k (-1) 1) (add (pw (v 3) 2) (pw (v 4) 2))),
  (add (k (-1) 1) (mul (v 3) (v 5))),
  (add (mul (k (-1) 1) (v 1)) (add (v 2) (mul (v 1) (mul (v 2) (v 6))))),
  (add (v 3) (add (mul (k (-1) 1) (v 5)) (mul (pw (v 4) 2) (v 5))))]
def gbc : List (List PE) := [[(k 1 1),
  (k 0 1),
  (k 0 1),
  (k 0 1)],
  [(k 0 1),
  (k 1 1),
  (k 0 1),
  (k 0 1)],
  [(k 0 1),
  (k 0 1),
  (k 1 1),
  (k 0 1)],
  [(k 0 1),
  (k 0 1),
  (k 0 1),
  (k 1 1)],
  [(mul (k (-1) 1) (v 2)),
  (v 1),
  (k 0 1),
  (k 0 1)],
  [(k 0 1),
  (k 0 1),
  (v 5),
  (mul (k (-1) 1) (v 3))]]

theorem gb_ok : (gb.zip gbc).all (fun p => (sub p.1 (comb rels p.2)).zero?) = true := by decide +kernel

theorem gb_len : gb.length = gbc.length := by decide +kernel

variable {ρ : ℕ → ℝ} (out : ∀ i, 16 ≤ i → ρ i = 0) (h : ∀ r ∈ rels, r.ev ρ = 0)
include out h

theorem gb_zero : ∀ r ∈ gb, r.ev ρ = 0 := ev_of_table out h gb_len gb_ok

omit out h in
theorem eq_of_sub {x y : PE} (h : (sub x y).ev ρ = 0) : x.ev ρ = y.ev ρ := sub_eq_zero.1 h

omit out h in
theorem G000_c : (sub (sub (G0 0 0) (G 0 0)) (comb gb [])).zero? = true := by decide +kernel
omit out h in
theorem G001_c : (sub (sub (G0 0 1) (G 0 1)) (comb gb [])).zero? = true := by decide +kernel
omit out h in
theorem G002_c : (sub (sub (G0 0 2) (G 0 2)) (comb gb [])).zero? = true := by decide +kernel
omit out h in
theorem G010_c : (sub (sub (G0 1 0) (G 1 0)) (comb gb [])).zero? = true := by decide +kernel
omit out h in
theorem G011_c : (sub (sub (G0 1 1) (G 1 1)) (comb gb [(add (mul (k 2 1) (mul (v 0) (v 6))) (add (pw (v 6) 2) (mul (v 0) (mul (v 1) (pw (v 6) 2))))),
  (k 0 1),
  (k 0 1),
  (k 0 1),
  (k 0 1),
  (k 0 1)])).zero? = true := by decide +kernel
omit out h in
theorem G012_c : (sub (sub (G0 1 2) (G 1 2)) (comb gb [])).zero? = true := by decide +kernel
omit out h in
theorem G020_c : (sub (sub (G0 2 0) (G 2 0)) (comb gb [])).zero? = true := by decide +kernel
omit out h in
theorem G021_c : (sub (sub (G0 2 1) (G 2 1)) (comb gb [])).zero? = true := by decide +kernel
omit out h in
theorem G022_c : (sub (sub (G0 2 2) (G 2 2)) (comb gb [(add (mul (mul (k 2 1) (v 0)) (mul (pw (v 3) 2) (v 6))) (add (mul (pw (v 3) 2) (pw (v 6) 2)) (mul (mul (v 0) (v 1)) (mul (pw (v 3) 2) (pw (v 6) 2))))),
  (k 0 1),
  (add (pw (v 0) 2) (add (mul (k 2 1) (mul (v 0) (v 6))) (pw (v 6) 2))),
  (k 0 1),
  (k 0 1),
  (k 0 1)])).zero? = true := by decide +kernel
theorem G0_eq : ∀ i j, (G0 i j).ev ρ = (G i j).ev ρ := fun i j => eq_of_sub (match i, j with
  | 0, 0 => ev_of_comb out (gb_zero out h) _ G000_c
  | 0, 1 => ev_of_comb out (gb_zero out h) _ G001_c
  | 0, 2 => ev_of_comb out (gb_zero out h) _ G002_c
  | 1, 0 => ev_of_comb out (gb_zero out h) _ G010_c
  | 1, 1 => ev_of_comb out (gb_zero out h) _ G011_c
  | 1, 2 => ev_of_comb out (gb_zero out h) _ G012_c
  | 2, 0 => ev_of_comb out (gb_zero out h) _ G020_c
  | 2, 1 => ev_of_comb out (gb_zero out h) _ G021_c
  | 2, 2 => ev_of_comb out (gb_zero out h) _ G022_c)

omit out h in
theorem K000_c : (sub (sub (K0 0 0) (K 0 0)) (comb gb [])).zero? = true := by decide +kernel
omit out h in
theorem K001_c : (sub (sub (K0 0 1) (K 0 1)) (comb gb [])).zero? = true := by decide +kernel
omit out h in
theorem K002_c : (sub (sub (K0 0 2) (K 0 2)) (comb gb [])).zero? = true := by decide +kernel
omit out h in
theorem K010_c : (sub (sub (K0 1 0) (K 1 0)) (comb gb [])).zero? = true := by decide +kernel
omit out h in
theorem K011_c : (sub (sub (K0 1 1) (K 1 1)) (comb gb [])).zero? = true := by decide +kernel
omit out h in
theorem K012_c : (sub (sub (K0 1 2) (K 1 2)) (comb gb [])).zero? = true := by decide +kernel
omit out h in
theorem K020_c : (sub (sub (K0 2 0) (K 2 0)) (comb gb [])).zero? = true := by decide +kernel
omit out h in
theorem K021_c : (sub (sub (K0 2 1) (K 2 1)) (comb gb [])).zero? = true := by decide +kernel
omit out h in
theorem K022_c : (sub (sub (K0 2 2) (K 2 2)) (comb gb [(k 0 1),
  (k 0 1),
  (v 6),
  (k 0 1),
  (k 0 1),
  (k 0 1)])).zero? = true := by decide +kernel
theorem K0_eq : ∀ i j, (K0 i j).ev ρ = (K i j).ev ρ := fun i j => eq_of_sub (match i, j with
  | 0, 0 => ev_of_comb out (gb_zero out h) _ K000_c
  | 0, 1 => ev_of_comb out (gb_zero out h) _ K001_c
  | 0, 2 => ev_of_comb out (gb_zero out h) _ K002_c
  | 1, 0 => ev_of_comb out (gb_zero out h) _ K010_c
  | 1, 1 => ev_of_comb out (gb_zero out h) _ K011_c
  | 1, 2 => ev_of_comb out (gb_zero out h) _ K012_c
  | 2, 0 => ev_of_comb out (gb_zero out h) _ K020_c
  | 2, 1 => ev_of_comb out (gb_zero out h) _ K021_c
  | 2, 2 => ev_of_comb out (gb_zero out h) _ K022_c)

omit out h in
theorem inv00_c : (sub (invE G I 0 0) (comb gb [(k 0 1),
  (k 0 1),
  (k 0 1),
  (k 0 1),
  (add (add (mul (k (-2) 1) (v 6)) (mul (k (-1) 1) (mul (v 1) (pw (v 6) 2)))) (add (mul (v 2) (pw (v 6) 2)) (mul (v 1) (mul (v 2) (pw (v 6) 3))))),
  (k 0 1)])).zero? = true := by decide +kernel
omit out h in
theorem inv01_c : (sub (invE G I 0 1) (comb gb [])).zero? = true := by decide +kernel
omit out h in
theorem inv02_c : (sub (invE G I 0 2) (comb gb [])).zero? = true := by decide +kernel
omit out h in
theorem inv10_c : (sub (invE G I 1 0) (comb gb [])).zero? = true := by decide +kernel
omit out h in
theorem inv11_c : (sub (invE G I 1 1) (comb gb [(k 0 1),
  (add (k 1 1) (add (mul (v 0) (v 2)) (mul (v 2) (v 6)))),
  (k 0 1),
  (k 0 1),
  (k 0 1),
  (k 0 1)])).zero? = true := by decide +kernel
omit out h in
theorem inv12_c : (sub (invE G I 1 2) (comb gb [])).zero? = true := by decide +kernel
omit out h in
theorem inv20_c : (sub (invE G I 2 0) (comb gb [])).zero? = true := by decide +kernel
omit out h in
theorem inv21_c : (sub (invE G I 2 1) (comb gb [])).zero? = true := by decide +kernel
omit out h in
theorem inv22_c : (sub (invE G I 2 2) (comb gb [(k 0 1),
  (add (add (pw (v 5) 2) (add (mul (v 0) (mul (v 2) (pw (v 5) 2))) (mul (v 2) (mul (pw (v 5) 2) (v 6))))) (add (mul (k (-1) 1) (mul (pw (v 4) 2) (pw (v 5) 2))) (add (mul (mul (k (-1) 1) (v 0)) (mul (v 2) (mul (pw (v 4) 2) (pw (v 5) 2)))) (mul (mul (k (-1) 1) (v 2)) (mul (pw (v 4) 2) (mul (pw (v 5) 2) (v 6))))))),
  (k 0 1),
  (k 1 1),
  (k 0 1),
  (mul (k (-1) 1) (v 5))])).zero? = true := by decide +kernel
theorem inv : ∀ i j, InvEq G I ρ i j := fun i j => invEq G I (match i, j with
  | 0, 0 => ev_of_comb out (gb_zero out h) _ inv00_c
  | 0, 1 => ev_of_comb out (gb_zero out h) _ inv01_c
  | 0, 2 => ev_of_comb out (gb_zero out h) _ inv02_c
  | 1, 0 => ev_of_comb out (gb_zero out h) _ inv10_c
  | 1, 1 => ev_of_comb out (gb_zero out h) _ inv11_c
  | 1, 2 => ev_of_comb out (gb_zero out h) _ inv12_c
  | 2, 0 => ev_of_comb out (gb_zero out h) _ inv20_c
  | 2, 1 => ev_of_comb out (gb_zero out h) _ inv21_c
  | 2, 2 => ev_of_comb out (gb_zero out h) _ inv22_c)

omit out h in
theorem chr000_c : (sub (chrE D G I Γ 0 0 0) (comb gb [(k 0 1),
  (k 0 1),
  (k 0 1),
  (k 0 1),
  (add (add (k (-1) 1) (mul (v 1) (v 6))) (add (mul (pw (v 1) 2) (pw (v 6) 2)) (mul (mul (k (-1) 1) (pw (v 1) 2)) (mul (v 2) (pw (v 6) 3))))),
  (k 0 1)])).zero? = true := by decide +kernel
omit out h in
theorem chr001_c : (sub (chrE D G I Γ 0 0 1) (comb gb [])).zero? = true := by decide +kernel
omit out h in
theorem chr002_c : (sub (chrE D G I Γ 0 0 2) (comb gb [])).zero? = true := by decide +kernel
omit out h in
theorem chr010_c : (sub (chrE D G I Γ 0 1 0) (comb gb [])).zero? = true := by decide +kernel
omit out h in
theorem chr011_c : (sub (chrE D G I Γ 0 1 1) (comb gb [(k 0 1),
  (add (mul (k 2 1) (v 6)) (mul (k (-1) 1) (mul (v 2) (pw (v 6) 2)))),
  (k 0 1),
  (k 0 1),
  (k 0 1),
  (k 0 1)])).zero? = true := by decide +kernel
omit out h in
theorem chr012_c : (sub (chrE D G I Γ 0 1 2) (comb gb [])).zero? = true := by decide +kernel
omit out h in
theorem chr020_c : (sub (chrE D G I Γ 0 2 0) (comb gb [])).zero? = true := by decide +kernel
omit out h in
theorem chr021_c : (sub (chrE D G I Γ 0 2 1) (comb gb [])).zero? = true := by decide +kernel
omit out h in
theorem chr022_c : (sub (chrE D G I Γ 0 2 2) (comb gb [(k 0 1),
  (add (add (mul (k 2 1) (v 6)) (mul (k (-1) 1) (mul (v 2) (pw (v 6) 2)))) (add (mul (k (-2) 1) (mul (pw (v 4) 2) (v 6))) (mul (v 2) (mul (pw (v 4) 2) (pw (v 6) 2))))),
  (k 0 1),
  (k 0 1),
  (k 0 1),
  (k 0 1)])).zero? = true := by decide +kernel
omit out h in
theorem chr100_c : (sub (chrE D G I Γ 1 0 0) (comb gb [])).zero? = true := by decide +kernel
omit out h in
theorem chr101_c : (sub (chrE D G I Γ 1 0 1) (comb gb [(k 0 1),
  (v 2),
  (k 0 1),
  (k 0 1),
  (k 0 1),
  (k 0 1)])).zero? = true := by decide +kernel
omit out h in
theorem chr102_c : (sub (chrE D G I Γ 1 0 2) (comb gb [])).zero? = true := by decide +kernel
omit out h in
theorem chr110_c : (sub (chrE D G I Γ 1 1 0) (comb gb [(k 0 1),
  (v 2),
  (k 0 1),
  (k 0 1),
  (k 0 1),
  (k 0 1)])).zero? = true := by decide +kernel
omit out h in
theorem chr111_c : (sub (chrE D G I Γ 1 1 1) (comb gb [])).zero? = true := by decide +kernel
omit out h in
theorem chr112_c : (sub (chrE D G I Γ 1 1 2) (comb gb [])).zero? = true := by decide +kernel
omit out h in
theorem chr120_c : (sub (chrE D G I Γ 1 2 0) (comb gb [])).zero? = true := by decide +kernel
omit out h in
theorem chr121_c : (sub (chrE D G I Γ 1 2 1) (comb gb [])).zero? = true := by decide +kernel
omit out h in
theorem chr122_c : (sub (chrE D G I Γ 1 2 2) (comb gb [(k 0 1),
  (add (mul (k (-1) 1) (mul (v 3) (v 4))) (add (mul (mul (k (-1) 1) (v 0)) (mul (v 2) (mul (v 3) (v 4)))) (mul (mul (k (-1) 1) (v 2)) (mul (v 3) (mul (v 4) (v 6)))))),
  (k 0 1),
  (k 0 1),
  (k 0 1),
  (k 0 1)])).zero? = true := by decide +kernel
omit out h in
theorem chr200_c : (sub (chrE D G I Γ 2 0 0) (comb gb [])).zero? = true := by decide +kernel
omit out h in
theorem chr201_c : (sub (chrE D G I Γ 2 0 1) (comb gb [])).zero? = true := by decide +kernel
omit out h in
theorem chr202_c : (sub (chrE D G I Γ 2 0 2) (comb gb [(k 0 1),
  (add (mul (v 2) (pw (v 5) 2)) (mul (mul (k (-1) 1) (v 2)) (mul (pw (v 4) 2) (pw (v 5) 2)))),
  (k 0 1),
  (v 2),
  (k 0 1),
  (mul (k (-1) 1) (mul (v 2) (v 5)))])).zero? = true := by decide +kernel
omit out h in
theorem chr210_c : (sub (chrE D G I Γ 2 1 0) (comb gb [])).zero? = true := by decide +kernel
omit out h in
theorem chr211_c : (sub (chrE D G I Γ 2 1 1) (comb gb [])).zero? = true := by decide +kernel
omit out h in
theorem chr212_c : (sub (chrE D G I Γ 2 1 2) (comb gb [(k 0 1),
  (add (mul (v 3) (mul (v 4) (pw (v 5) 2))) (add (mul (mul (v 0) (v 2)) (mul (v 3) (mul (v 4) (pw (v 5) 2)))) (mul (mul (v 2) (v 3)) (mul (v 4) (mul (pw (v 5) 2) (v 6)))))),
  (k 0 1),
  (mul (v 4) (v 5)),
  (k 0 1),
  (k 0 1)])).zero? = true := by decide +kernel
omit out h in
theorem chr220_c : (sub (chrE D G I Γ 2 2 0) (comb gb [(k 0 1),
  (add (mul (v 2) (pw (v 5) 2)) (mul (mul (k (-1) 1) (v 2)) (mul (pw (v 4) 2) (pw (v 5) 2)))),
  (k 0 1),
  (v 2),
  (k 0 1),
  (mul (k (-1) 1) (mul (v 2) (v 5)))])).zero? = true := by decide +kernel
omit out h in
theorem chr221_c : (sub (chrE D G I Γ 2 2 1) (comb gb [(k 0 1),
  (add (mul (v 3) (mul (v 4) (pw (v 5) 2))) (add (mul (mul (v 0) (v 2)) (mul (v 3) (mul (v 4) (pw (v 5) 2)))) (mul (mul (v 2) (v 3)) (mul (v 4) (mul (pw (v 5) 2) (v 6)))))),
  (k 0 1),
  (mul (v 4) (v 5)),
  (k 0 1),
  (k 0 1)])).zero? = true := by decide +kernel
omit out h in
theorem chr222_c : (sub (chrE D G I Γ 2 2 2) (comb gb [])).zero? = true := by decide +kernel
theorem chr : ∀ i j l, ChrEq D G I Γ ρ i j l := fun i j l => chrEq D G I Γ (match i, j, l with
  | 0, 0, 0 => ev_of_comb out (gb_zero out h) _ chr000_c
  | 0, 0, 1 => ev_of_comb out (gb_zero out h) _ chr001_c
  | 0, 0, 2 => ev_of_comb out (gb_zero out h) _ chr002_c
  | 0, 1, 0 => ev_of_comb out (gb_zero out h) _ chr010_c
  | 0, 1, 1 => ev_of_comb out (gb_zero out h) _ chr011_c
  | 0, 1, 2 => ev_of_comb out (gb_zero out h) _ chr012_c
  | 0, 2, 0 => ev_of_comb out (gb_zero out h) _ chr020_c
  | 0, 2, 1 => ev_of_comb out (gb_zero out h) _ chr021_c
  | 0, 2, 2 => ev_of_comb out (gb_zero out h) _ chr022_c
  | 1, 0, 0 => ev_of_comb out (gb_zero out h) _ chr100_c
  | 1, 0, 1 => ev_of_comb out (gb_zero out h) _ chr101_c
  | 1, 0, 2 => ev_of_comb out (gb_zero out h) _ chr102_c
  | 1, 1, 0 => ev_of_comb out (gb_zero out h) _ chr110_c
  | 1, 1, 1 => ev_of_comb out (gb_zero out h) _ chr111_c
  | 1, 1, 2 => ev_of_comb out (gb_zero out h) _ chr112_c
  | 1, 2, 0 => ev_of_comb out (gb_zero out h) _ chr120_c
  | 1, 2, 1 => ev_of_comb out (gb_zero out h) _ chr121_c
  | 1, 2, 2 => ev_of_comb out (gb_zero out h) _ chr122_c
  | 2, 0, 0 => ev_of_comb out (gb_zero out h) _ chr200_c
  | 2, 0, 1 => ev_of_comb out (gb_zero out h) _ chr201_c
  | 2, 0, 2 => ev_of_comb out (gb_zero out h) _ chr202_c
  | 2, 1, 0 => ev_of_comb out (gb_zero out h) _ chr210_c
  | 2, 1, 1 => ev_of_comb out (gb_zero out h) _ chr211_c
  | 2, 1, 2 => ev_of_comb out (gb_zero out h) _ chr212_c
  | 2, 2, 0 => ev_of_comb out (gb_zero out h) _ chr220_c
  | 2, 2, 1 => ev_of_comb out (gb_zero out h) _ chr221_c
  | 2, 2, 2 => ev_of_comb out (gb_zero out h) _ chr222_c)

omit out h in
theorem ric00_c : (sub (ricE D Γ Ric 0 0) (comb gb [])).zero? = true := by decide +kernel
omit out h in
theorem ric01_c : (sub (ricE D Γ Ric 0 1) (comb gb [])).zero? = true := by decide +kernel
omit out h in
theorem ric02_c : (sub (ricE D Γ Ric 0 2) (comb gb [])).zero? = true := by decide +kernel
omit out h in
theorem ric10_c : (sub (ricE D Γ Ric 1 0) (comb gb [])).zero? = true := by decide +kernel
omit out h in
theorem ric11_c : (sub (ricE D Γ Ric 1 1) (comb gb [(k 1 1),
  (k (-1) 1),
  (k 0 1),
  (k 1 1),
  (v 6),
  (k 0 1)])).zero? = true := by decide +kernel
omit out h in
theorem ric12_c : (sub (ricE D Γ Ric 1 2) (comb gb [])).zero? = true := by decide +kernel
omit out h in
theorem ric20_c : (sub (ricE D Γ Ric 2 0) (comb gb [])).zero? = true := by decide +kernel
omit out h in
theorem ric21_c : (sub (ricE D Γ Ric 2 1) (comb gb [])).zero? = true := by decide +kernel
omit out h in
theorem ric22_c : (sub (ricE D Γ Ric 2 2) (comb gb [(add (k 1 1) (mul (k (-1) 1) (pw (v 4) 2))),
  (add (k (-1) 1) (pw (v 4) 2)),
  (k 1 1),
  (pw (v 4) 2),
  (add (v 6) (mul (k (-1) 1) (mul (pw (v 4) 2) (v 6)))),
  (k 0 1)])).zero? = true := by decide +kernel
theorem ric : ∀ i j, RicEq D Γ Ric ρ i j := fun i j => ricEq D Γ Ric (match i, j with
  | 0, 0 => ev_of_comb out (gb_zero out h) _ ric00_c
  | 0, 1 => ev_of_comb out (gb_zero out h) _ ric01_c
  | 0, 2 => ev_of_comb out (gb_zero out h) _ ric02_c
  | 1, 0 => ev_of_comb out (gb_zero out h) _ ric10_c
  | 1, 1 => ev_of_comb out (gb_zero out h) _ ric11_c
  | 1, 2 => ev_of_comb out (gb_zero out h) _ ric12_c
  | 2, 0 => ev_of_comb out (gb_zero out h) _ ric20_c
  | 2, 1 => ev_of_comb out (gb_zero out h) _ ric21_c
  | 2, 2 => ev_of_comb out (gb_zero out h) _ ric22_c)

omit out h in
theorem tr_c : (sub (trE I K t ) (comb gb [(k 0 1),
  (k 0 1),
  (k 0 1),
  (mul (pw (v 2) 2) (v 6)),
  (add (mul (v 1) (v 6)) (add (mul (v 2) (v 6)) (mul (mul (k (-1) 1) (v 1)) (mul (v 2) (pw (v 6) 2))))),
  (mul (mul (k (-1) 1) (pw (v 2) 2)) (mul (v 5) (v 6)))])).zero? = true := by decide +kernel
theorem tr : TrEq I K t ρ := trEq I K t (ev_of_comb out (gb_zero out h) _ tr_c)

omit out h in
theorem up00_c : (sub (upE I K U 0 0) (comb gb [(k 0 1),
  (k 0 1),
  (k 0 1),
  (k 0 1),
  (add (add (mul (v 1) (v 6)) (add (mul (v 2) (v 6)) (mul (mul (k (-3) 1) (v 1)) (mul (v 2) (pw (v 6) 2))))) (add (add (mul (k (-2) 1) (mul (pw (v 2) 2) (pw (v 6) 2))) (mul (mul (k 3 1) (v 1)) (mul (pw (v 2) 2) (pw (v 6) 3)))) (add (mul (pw (v 2) 3) (pw (v 6) 3)) (mul (mul (k (-1) 1) (v 1)) (mul (pw (v 2) 3) (pw (v 6) 4)))))),
  (k 0 1)])).zero? = true := by decide +kernel
omit out h in
theorem up01_c : (sub (upE I K U 0 1) (comb gb [])).zero? = true := by decide +kernel
omit out h in
theorem up02_c : (sub (upE I K U 0 2) (comb gb [])).zero? = true := by decide +kernel
omit out h in
theorem up10_c : (sub (upE I K U 1 0) (comb gb [])).zero? = true := by decide +kernel
omit out h in
theorem up11_c : (sub (upE I K U 1 1) (comb gb [])).zero? = true := by decide +kernel
omit out h in
theorem up12_c : (sub (upE I K U 1 2) (comb gb [])).zero? = true := by decide +kernel
omit out h in
theorem up20_c : (sub (upE I K U 2 0) (comb gb [])).zero? = true := by decide +kernel
omit out h in
theorem up21_c : (sub (upE I K U 2 1) (comb gb [])).zero? = true := by decide +kernel
omit out h in
theorem up22_c : (sub (upE I K U 2 2) (comb gb [(k 0 1),
  (k 0 1),
  (k 0 1),
  (mul (pw (v 2) 4) (mul (pw (v 5) 2) (v 6))),
  (k 0 1),
  (mul (mul (k (-1) 1) (pw (v 2) 4)) (mul (pw (v 5) 3) (v 6)))])).zero? = true := by decide +kernel
theorem up : ∀ i j, UpEq I K U ρ i j := fun i j => upEq I K U (match i, j with
  | 0, 0 => ev_of_comb out (gb_zero out h) _ up00_c
  | 0, 1 => ev_of_comb out (gb_zero out h) _ up01_c
  | 0, 2 => ev_of_comb out (gb_zero out h) _ up02_c
  | 1, 0 => ev_of_comb out (gb_zero out h) _ up10_c
  | 1, 1 => ev_of_comb out (gb_zero out h) _ up11_c
  | 1, 2 => ev_of_comb out (gb_zero out h) _ up12_c
  | 2, 0 => ev_of_comb out (gb_zero out h) _ up20_c
  | 2, 1 => ev_of_comb out (gb_zero out h) _ up21_c
  | 2, 2 => ev_of_comb out (gb_zero out h) _ up22_c)

omit out h in
theorem tt00_c : (sub (tE I U T t 0 0) (comb gb [])).zero? = true := by decide +kernel
omit out h in
theorem tt01_c : (sub (tE I U T t 0 1) (comb gb [])).zero? = true := by decide +kernel
omit out h in
theorem tt02_c : (sub (tE I U T t 0 2) (comb gb [])).zero? = true := by decide +kernel
omit out h in
theorem tt10_c : (sub (tE I U T t 1 0) (comb gb [])).zero? = true := by decide +kernel
omit out h in
theorem tt11_c : (sub (tE I U T t 1 1) (comb gb [])).zero? = true := by decide +kernel
omit out h in
theorem tt12_c : (sub (tE I U T t 1 2) (comb gb [])).zero? = true := by decide +kernel
omit out h in
theorem tt20_c : (sub (tE I U T t 2 0) (comb gb [])).zero? = true := by decide +kernel
omit out h in
theorem tt21_c : (sub (tE I U T t 2 1) (comb gb [])).zero? = true := by decide +kernel
omit out h in
theorem tt22_c : (sub (tE I U T t 2 2) (comb gb [])).zero? = true := by decide +kernel
theorem tt : ∀ i j, TEq I U T t ρ i j := fun i j => tEq I U T t (match i, j with
  | 0, 0 => ev_of_comb out (gb_zero out h) _ tt00_c
  | 0, 1 => ev_of_comb out (gb_zero out h) _ tt01_c
  | 0, 2 => ev_of_comb out (gb_zero out h) _ tt02_c
  | 1, 0 => ev_of_comb out (gb_zero out h) _ tt10_c
  | 1, 1 => ev_of_comb out (gb_zero out h) _ tt11_c
  | 1, 2 => ev_of_comb out (gb_zero out h) _ tt12_c
  | 2, 0 => ev_of_comb out (gb_zero out h) _ tt20_c
  | 2, 1 => ev_of_comb out (gb_zero out h) _ tt21_c
  | 2, 2 => ev_of_comb out (gb_zero out h) _ tt22_c)

omit out h in
theorem ham_c : (sub (hamE I Ric K U t ) (comb gb [(k 0 1),
  (k 0 1),
  (k 0 1),
  (add (mul (pw (v 2) 3) (v 6)) (mul (k (-1) 1) (mul (pw (v 2) 4) (pw (v 6) 2)))),
  (add (add (mul (k 2 1) (v 2)) (mul (k (-2) 1) (mul (pw (v 2) 2) (v 6)))) (add (mul (v 1) (mul (pw (v 2) 2) (pw (v 6) 2))) (add (mul (pw (v 2) 3) (pw (v 6) 2)) (mul (mul (k (-1) 1) (v 1)) (mul (pw (v 2) 3) (pw (v 6) 3)))))),
  (add (mul (mul (k (-1) 1) (pw (v 2) 3)) (mul (v 5) (v 6))) (mul (pw (v 2) 4) (mul (v 5) (pw (v 6) 2))))])).zero? = true := by decide +kernel
theorem ham : HamEq I Ric K U t ρ := hamEq I Ric K U t (ev_of_comb out (gb_zero out h) _ ham_c)

omit out h in
theorem mom0_c : (sub (momE D Γ T 0) (comb gb [(k 0 1),
  (k 0 1),
  (k 0 1),
  (k 0 1),
  (add (mul (k (-4) 1) (mul (pw (v 2) 2) (v 6))) (mul (k 4 1) (mul (pw (v 2) 3) (pw (v 6) 2)))),
  (k 0 1)])).zero? = true := by decide +kernel
omit out h in
theorem mom1_c : (sub (momE D Γ T 1) (comb gb [])).zero? = true := by decide +kernel
omit out h in
theorem mom2_c : (sub (momE D Γ T 2) (comb gb [])).zero? = true := by decide +kernel
theorem mom : ∀ i, MomEq D Γ T ρ i := fun i => momEq D Γ T (match i with
  | 0 => ev_of_comb out (gb_zero out h) _ mom0_c
  | 1 => ev_of_comb out (gb_zero out h) _ mom1_c
  | 2 => ev_of_comb out (gb_zero out h) _ mom2_c)

omit out h in
theorem gdot00_c : (sub (gdotE D G K a b 0 0) (comb gb [(add (add (mul (mul (k 2 1) (v 1)) (mul (v 2) (v 6))) (mul (mul (k (-2) 1) (v 1)) (mul (pw (v 2) 2) (pw (v 6) 2)))) (add (mul (k (-8) 1) (mul (pw (v 2) 3) (pw (v 6) 2))) (add (mul (mul (k (-2) 1) (pw (v 1) 2)) (mul (pw (v 2) 2) (pw (v 6) 3))) (mul (mul (k (-4) 1) (v 1)) (mul (pw (v 2) 3) (pw (v 6) 3)))))),
  (mul (k (-4) 1) (mul (pw (v 2) 2) (v 6))),
  (k 0 1),
  (k 0 1),
  (add (mul (k (-2) 1) (mul (v 2) (v 6))) (mul (k (-4) 1) (mul (pw (v 2) 2) (pw (v 6) 2)))),
  (k 0 1)])).zero? = true := by decide +kernel
omit out h in
theorem gdot01_c : (sub (gdotE D G K a b 0 1) (comb gb [])).zero? = true := by decide +kernel
omit out h in
theorem gdot02_c : (sub (gdotE D G K a b 0 2) (comb gb [])).zero? = true := by decide +kernel
omit out h in
theorem gdot10_c : (sub (gdotE D G K a b 1 0) (comb gb [])).zero? = true := by decide +kernel
omit out h in
theorem gdot11_c : (sub (gdotE D G K a b 1 1) (comb gb [(k 0 1),
  (mul (mul (k 2 1) (v 0)) (mul (v 2) (v 6))),
  (k 0 1),
  (k 0 1),
  (k 0 1),
  (k 0 1)])).zero? = true := by decide +kernel
omit out h in
theorem gdot12_c : (sub (gdotE D G K a b 1 2) (comb gb [])).zero? = true := by decide +kernel
omit out h in
theorem gdot20_c : (sub (gdotE D G K a b 2 0) (comb gb [])).zero? = true := by decide +kernel
omit out h in
theorem gdot21_c : (sub (gdotE D G K a b 2 1) (comb gb [])).zero? = true := by decide +kernel
omit out h in
theorem gdot22_c : (sub (gdotE D G K a b 2 2) (comb gb [(k 0 1),
  (add (mul (mul (k 2 1) (v 0)) (mul (v 2) (v 6))) (mul (mul (k (-2) 1) (v 0)) (mul (v 2) (mul (pw (v 4) 2) (v 6))))),
  (k 0 1),
  (k 0 1),
  (k 0 1),
  (k 0 1)])).zero? = true := by decide +kernel
theorem gdot : ∀ i j, GdotEq D G K a b ρ i j := fun i j => gdotEq D G K a b (match i, j with
  | 0, 0 => ev_of_comb out (gb_zero out h) _ gdot00_c
  | 0, 1 => ev_of_comb out (gb_zero out h) _ gdot01_c
  | 0, 2 => ev_of_comb out (gb_zero out h) _ gdot02_c
  | 1, 0 => ev_of_comb out (gb_zero out h) _ gdot10_c
  | 1, 1 => ev_of_comb out (gb_zero out h) _ gdot11_c
  | 1, 2 => ev_of_comb out (gb_zero out h) _ gdot12_c
  | 2, 0 => ev_of_comb out (gb_zero out h) _ gdot20_c
  | 2, 1 => ev_of_comb out (gb_zero out h) _ gdot21_c
  | 2, 2 => ev_of_comb out (gb_zero out h) _ gdot22_c)

omit out h in
theorem kdot00_c : (sub (kdotE D I Γ Ric K t a b 0 0) (comb gb [(add (add (mul (k (-1) 1) (pw (v 2) 2)) (add (mul (mul (k (-2) 1) (pw (v 1) 3)) (mul (v 2) (pw (v 6) 2))) (mul (mul (k 2 1) (pw (v 1) 2)) (mul (pw (v 2) 2) (pw (v 6) 2))))) (add (mul (mul (k 3 1) (v 1)) (mul (pw (v 2) 3) (pw (v 6) 2))) (add (mul (mul (k 4 1) (pw (v 1) 3)) (mul (pw (v 2) 2) (pw (v 6) 3))) (mul (mul (k (-2) 1) (pw (v 1) 3)) (mul (pw (v 2) 3) (pw (v 6) 4)))))),
  (mul (k (-1) 1) (pw (v 2) 2)),
  (k 0 1),
  (k 0 1),
  (add (add (v 2) (mul (pw (v 2) 2) (v 6))) (add (mul (mul (k 2 1) (pw (v 1) 2)) (mul (v 2) (pw (v 6) 2))) (add (mul (mul (k 2 1) (v 1)) (mul (pw (v 2) 2) (pw (v 6) 2))) (mul (mul (k (-2) 1) (pw (v 1) 2)) (mul (pw (v 2) 2) (pw (v 6) 3)))))),
  (k 0 1)])).zero? = true := by decide +kernel
omit out h in
theorem kdot01_c : (sub (kdotE D I Γ Ric K t a b 0 1) (comb gb [])).zero? = true := by decide +kernel
omit out h in
theorem kdot02_c : (sub (kdotE D I Γ Ric K t a b 0 2) (comb gb [])).zero? = true := by decide +kernel
omit out h in
theorem kdot10_c : (sub (kdotE D I Γ Ric K t a b 1 0) (comb gb [])).zero? = true := by decide +kernel
omit out h in
theorem kdot11_c : (sub (kdotE D I Γ Ric K t a b 1 1) (comb gb [(k 0 1),
  (add (mul (v 0) (v 2)) (mul (k (-1) 1) (mul (v 2) (v 6)))),
  (k 0 1),
  (k 0 1),
  (k 0 1),
  (k 0 1)])).zero? = true := by decide +kernel
omit out h in
theorem kdot12_c : (sub (kdotE D I Γ Ric K t a b 1 2) (comb gb [])).zero? = true := by decide +kernel
omit out h in
theorem kdot20_c : (sub (kdotE D I Γ Ric K t a b 2 0) (comb gb [])).zero? = true := by decide +kernel
omit out h in
theorem kdot21_c : (sub (kdotE D I Γ Ric K t a b 2 1) (comb gb [])).zero? = true := by decide +kernel
omit out h in
theorem kdot22_c : (sub (kdotE D I Γ Ric K t a b 2 2) (comb gb [(k 0 1),
  (add (add (add (mul (v 0) (v 2)) (mul (k (-1) 1) (mul (v 2) (v 6)))) (add (mul (mul (k (-1) 1) (v 0)) (mul (v 2) (pw (v 4) 2))) (mul (k 2 1) (mul (pw (v 2) 2) (pw (v 6) 2))))) (add (add (mul (v 2) (mul (pw (v 4) 2) (v 6))) (mul (mul (k (-2) 1) (pw (v 2) 2)) (mul (pw (v 4) 2) (pw (v 6) 2)))) (add (mul (mul (k (-2) 1) (pw (v 2) 2)) (mul (pw (v 5) 2) (pw (v 6) 2))) (add (mul (mul (k 4 1) (pw (v 2) 2)) (mul (pw (v 4) 2) (mul (pw (v 5) 2) (pw (v 6) 2)))) (mul (mul (k (-2) 1) (pw (v 2) 2)) (mul (pw (v 4) 4) (mul (pw (v 5) 2) (pw (v 6) 2)))))))),
  (k 0 1),
  (add (add (mul (k (-2) 1) (mul (pw (v 2) 2) (pw (v 6) 2))) (mul (k 2 1) (mul (pw (v 2) 3) (pw (v 6) 3)))) (add (mul (mul (k 2 1) (pw (v 2) 2)) (mul (pw (v 4) 2) (pw (v 6) 2))) (mul (mul (k (-2) 1) (pw (v 2) 3)) (mul (pw (v 4) 2) (pw (v 6) 3))))),
  (k 0 1),
  (add (add (mul (mul (k 2 1) (pw (v 2) 2)) (mul (v 5) (pw (v 6) 2))) (mul (mul (k (-2) 1) (pw (v 2) 3)) (mul (v 5) (pw (v 6) 3)))) (add (mul (mul (k (-2) 1) (pw (v 2) 2)) (mul (pw (v 4) 2) (mul (v 5) (pw (v 6) 2)))) (mul (mul (k 2 1) (pw (v 2) 3)) (mul (pw (v 4) 2) (mul (v 5) (pw (v 6) 3))))))])).zero? = true := by decide +kernel
theorem kdot : ∀ i j, KdotEq D I Γ Ric K t a b ρ i j := fun i j => kdotEq D I Γ Ric K t a b (match i, j with
  | 0, 0 => ev_of_comb out (gb_zero out h) _ kdot00_c
  | 0, 1 => ev_of_comb out (gb_zero out h) _ kdot01_c
  | 0, 2 => ev_of_comb out (gb_zero out h) _ kdot02_c
  | 1, 0 => ev_of_comb out (gb_zero out h) _ kdot10_c
  | 1, 1 => ev_of_comb out (gb_zero out h) _ kdot11_c
  | 1, 2 => ev_of_comb out (gb_zero out h) _ kdot12_c
  | 2, 0 => ev_of_comb out (gb_zero out h) _ kdot20_c
  | 2, 1 => ev_of_comb out (gb_zero out h) _ kdot21_c
  | 2, 2 => ev_of_comb out (gb_zero out h) _ kdot22_c)

end Verif.Initial.Trumpet
