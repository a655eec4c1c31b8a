import Mathlib.Analysis.SpecialFunctions.Sqrt

/-!
# Butcher tables (nrpy/infrastructures/BHaH/MoLtimestepping/RK_Butcher_Table_Dictionary.py)

A table is a Python list of rows.  The first cell of a row is a number (the abscissa `c`) or a
string (`""`, `"HO"`, `"LO"`); the remaining cells are numbers.

SymPy numbers.  The only numbers that occur in the dictionary are rationals and the elements
`(a + b*sqrt(21))/d` of ℚ(√21), written in the source literally in this form.  They are kept as
written: three integers.  Their value is the real number `(a + b √21)/d`.
-/

namespace Verif.MoL

/-- A number as it is written in the dictionary: `(a + b*sqrt(21))/d`. -/
structure Q21 where
  a : Int
  b : Int
  d : Nat
deriving DecidableEq, Repr

/-- `sp.Rational(p, q)`. -/
def r (p : Int) (q : Nat) : Q21 := ⟨p, 0, q⟩
/-- A Python `int`. -/
def int (n : Int) : Q21 := ⟨n, 0, 1⟩
/-- `(a + b*q)/d` with `q = sp.sqrt(21)` (RK_Butcher_Table_Dictionary.py:170). -/
def q21 (a b : Int) (d : Nat) : Q21 := ⟨a, b, d⟩

/-- The real number a cell denotes. -/
noncomputable def Q21.val (x : Q21) : ℝ := ((x.a : ℝ) + (x.b : ℝ) * Real.sqrt 21) / (x.d : ℝ)

/-- First cell of a row. -/
inductive Head (K : Type*) where
  | num (c : K)
  | str (s : String)
deriving DecidableEq, Repr

/-- One row of a Butcher table: `row[0]` and `row[1:]`. -/
structure Row (K : Type*) where
  head : Head K
  tail : List K
deriving DecidableEq, Repr

abbrev Table (K : Type*) := List (Row K)

/-- Apply a function to every number of a table. -/
def Head.map {K L : Type*} (f : K → L) : Head K → Head L
  | .num c => .num (f c)
  | .str s => .str s
def Row.map {K L : Type*} (f : K → L) (x : Row K) : Row L := ⟨x.head.map f, x.tail.map f⟩
def Table.mapNum {K L : Type*} (f : K → L) (t : Table K) : Table L := t.map (Row.map f)

/-- `Euler`, RK_Butcher_Table_Dictionary.py:43-46. -/
def tblEuler : Table Q21 :=
  [
    ⟨.num (int 0), []⟩,
    ⟨.str "", [int 1]⟩]

/-- `RK2 Heun`, RK_Butcher_Table_Dictionary.py:50-54. -/
def tblRK2Heun : Table Q21 :=
  [
    ⟨.num (int 0), []⟩,
    ⟨.num (int 1), [int 1]⟩,
    ⟨.str "", [r 1 2, r 1 2]⟩]

/-- `RK2 MP`, RK_Butcher_Table_Dictionary.py:58-62. -/
def tblRK2MP : Table Q21 :=
  [
    ⟨.num (int 0), []⟩,
    ⟨.num (r 1 2), [r 1 2]⟩,
    ⟨.str "", [int 0, int 1]⟩]

/-- `RK2 Ralston`, RK_Butcher_Table_Dictionary.py:66-70. -/
def tblRK2Ralston : Table Q21 :=
  [
    ⟨.num (int 0), []⟩,
    ⟨.num (r 2 3), [r 2 3]⟩,
    ⟨.str "", [r 1 4, r 3 4]⟩]

/-- `RK3`, RK_Butcher_Table_Dictionary.py:74-79. -/
def tblRK3 : Table Q21 :=
  [
    ⟨.num (int 0), []⟩,
    ⟨.num (r 1 2), [r 1 2]⟩,
    ⟨.num (int 1), [int (-1), int 2]⟩,
    ⟨.str "", [r 1 6, r 2 3, r 1 6]⟩]

/-- `RK3 Heun`, RK_Butcher_Table_Dictionary.py:83-88. -/
def tblRK3Heun : Table Q21 :=
  [
    ⟨.num (int 0), []⟩,
    ⟨.num (r 1 3), [r 1 3]⟩,
    ⟨.num (r 2 3), [int 0, r 2 3]⟩,
    ⟨.str "", [r 1 4, int 0, r 3 4]⟩]

/-- `RK3 Ralston`, RK_Butcher_Table_Dictionary.py:92-97. -/
def tblRK3Ralston : Table Q21 :=
  [
    ⟨.num (int 0), []⟩,
    ⟨.num (r 1 2), [r 1 2]⟩,
    ⟨.num (r 3 4), [int 0, r 3 4]⟩,
    ⟨.str "", [r 2 9, r 1 3, r 4 9]⟩]

/-- `SSPRK3`, RK_Butcher_Table_Dictionary.py:100-105. -/
def tblSSPRK3 : Table Q21 :=
  [
    ⟨.num (int 0), []⟩,
    ⟨.num (int 1), [int 1]⟩,
    ⟨.num (r 1 2), [r 1 4, r 1 4]⟩,
    ⟨.str "", [r 1 6, r 1 6, r 2 3]⟩]

/-- `RK4`, RK_Butcher_Table_Dictionary.py:109-115. -/
def tblRK4 : Table Q21 :=
  [
    ⟨.num (int 0), []⟩,
    ⟨.num (r 1 2), [r 1 2]⟩,
    ⟨.num (r 1 2), [int 0, r 1 2]⟩,
    ⟨.num (int 1), [int 0, int 0, int 1]⟩,
    ⟨.str "", [r 1 6, r 1 3, r 1 3, r 1 6]⟩]

/-- `DP5`, RK_Butcher_Table_Dictionary.py:119-128. -/
def tblDP5 : Table Q21 :=
  [
    ⟨.num (int 0), []⟩,
    ⟨.num (r 1 5), [r 1 5]⟩,
    ⟨.num (r 3 10), [r 3 40, r 9 40]⟩,
    ⟨.num (r 4 5), [r 44 45, r (-56) 15, r 32 9]⟩,
    ⟨.num (r 8 9), [r 19372 6561, r (-25360) 2187, r 64448 6561, r (-212) 729]⟩,
    ⟨.num (int 1), [r 9017 3168, r (-355) 33, r 46732 5247, r 49 176, r (-5103) 18656]⟩,
    ⟨.num (int 1), [r 35 384, int 0, r 500 1113, r 125 192, r (-2187) 6784, r 11 84]⟩,
    ⟨.str "", [r 35 384, int 0, r 500 1113, r 125 192, r (-2187) 6784, r 11 84, int 0]⟩]

/-- `DP5alt`, RK_Butcher_Table_Dictionary.py:132-141. -/
def tblDP5alt : Table Q21 :=
  [
    ⟨.num (int 0), []⟩,
    ⟨.num (r 1 10), [r 1 10]⟩,
    ⟨.num (r 2 9), [r (-2) 81, r 20 81]⟩,
    ⟨.num (r 3 7), [r 615 1372, r (-270) 343, r 1053 1372]⟩,
    ⟨.num (r 3 5), [r 3243 5500, r (-54) 55, r 50949 71500, r 4998 17875]⟩,
    ⟨.num (r 4 5), [r (-26492) 37125, r 72 55, r 2808 23375, r (-24206) 37125, r 338 459]⟩,
    ⟨.num (int 1), [r 5561 2376, r (-35) 11, r (-24117) 31603, r 899983 200772, r (-5225) 1836, r 3925 4056]⟩,
    ⟨.str "", [r 821 10800, int 0, r 19683 71825, r 175273 912600, r 395 3672, r 785 2704, r 3 50]⟩]

/-- `CK5`, RK_Butcher_Table_Dictionary.py:145-153. -/
def tblCK5 : Table Q21 :=
  [
    ⟨.num (int 0), []⟩,
    ⟨.num (r 1 5), [r 1 5]⟩,
    ⟨.num (r 3 10), [r 3 40, r 9 40]⟩,
    ⟨.num (r 3 5), [r 3 10, r (-9) 10, r 6 5]⟩,
    ⟨.num (int 1), [r (-11) 54, r 5 2, r (-70) 27, r 35 27]⟩,
    ⟨.num (r 7 8), [r 1631 55296, r 175 512, r 575 13824, r 44275 110592, r 253 4096]⟩,
    ⟨.str "", [r 37 378, int 0, r 250 621, r 125 594, int 0, r 512 1771]⟩]

/-- `DP6`, RK_Butcher_Table_Dictionary.py:157-167. -/
def tblDP6 : Table Q21 :=
  [
    ⟨.num (int 0), []⟩,
    ⟨.num (r 1 10), [r 1 10]⟩,
    ⟨.num (r 2 9), [r (-2) 81, r 20 81]⟩,
    ⟨.num (r 3 7), [r 615 1372, r (-270) 343, r 1053 1372]⟩,
    ⟨.num (r 3 5), [r 3243 5500, r (-54) 55, r 50949 71500, r 4998 17875]⟩,
    ⟨.num (r 4 5), [r (-26492) 37125, r 72 55, r 2808 23375, r (-24206) 37125, r 338 459]⟩,
    ⟨.num (int 1), [r 5561 2376, r (-35) 11, r (-24117) 31603, r 899983 200772, r (-5225) 1836, r 3925 4056]⟩,
    ⟨.num (int 1), [r 465467 266112, r (-2945) 1232, r (-5610201) 14158144, r 10513573 3212352, r (-424325) 205632, r 376225 454272, int 0]⟩,
    ⟨.str "", [r 61 864, int 0, r 98415 321776, r 16807 146016, r 1375 7344, r 1375 5408, r (-37) 1120, r 1 10]⟩]

/-- `L6`, RK_Butcher_Table_Dictionary.py:172-181. -/
def tblL6 : Table Q21 :=
  [
    ⟨.num (int 0), []⟩,
    ⟨.num (int 1), [int 1]⟩,
    ⟨.num (r 1 2), [r 3 8, r 1 8]⟩,
    ⟨.num (r 2 3), [r 8 27, r 2 27, r 8 27]⟩,
    ⟨.num (q21 (7) (-1) 14), [q21 (-21) (9) 392, q21 (-56) (8) 392, q21 (336) (-48) 392, q21 (-63) (3) 392]⟩,
    ⟨.num (q21 (7) (1) 14), [q21 (-1155) (-255) 1960, q21 (-280) (-40) 1960, q21 (0) (-320) 1960, q21 (63) (363) 1960, q21 (2352) (392) 1960]⟩,
    ⟨.num (int 1), [q21 (330) (105) 180, r 2 3, q21 (-200) (280) 180, q21 (126) (-189) 180, q21 (-686) (-126) 180, q21 (490) (-70) 180]⟩,
    ⟨.str "", [r 1 20, int 0, r 16 45, int 0, r 49 180, r 49 180, r 1 20]⟩]

/-- `DP8`, RK_Butcher_Table_Dictionary.py:185-200. -/
def tblDP8 : Table Q21 :=
  [
    ⟨.num (int 0), []⟩,
    ⟨.num (r 1 18), [r 1 18]⟩,
    ⟨.num (r 1 12), [r 1 48, r 1 16]⟩,
    ⟨.num (r 1 8), [r 1 32, int 0, r 3 32]⟩,
    ⟨.num (r 5 16), [r 5 16, int 0, r (-75) 64, r 75 64]⟩,
    ⟨.num (r 3 8), [r 3 80, int 0, int 0, r 3 16, r 3 20]⟩,
    ⟨.num (r 59 400), [r 29443841 614563906, int 0, int 0, r 77736538 692538347, r (-28693883) 1125000000, r 23124283 1800000000]⟩,
    ⟨.num (r 93 200), [r 16016141 946692911, int 0, int 0, r 61564180 158732637, r 22789713 633445777, r 545815736 2771057229, r (-180193667) 1043307555]⟩,
    ⟨.num (r 5490023248 9719169821), [r 39632708 573591083, int 0, int 0, r (-433636366) 683701615, r (-421739975) 2616292301, r 100302831 723423059, r 790204164 839813087, r 800635310 3783071287]⟩,
    ⟨.num (r 13 20), [r 246121993 1340847787, int 0, int 0, r (-37695042795) 15268766246, r (-309121744) 1061227803, r (-12992083) 490766935, r 6005943493 2108947869, r 393006217 1396673457, r 123872331 1001029789]⟩,
    ⟨.num (r 1201146811 1299019798), [r (-1028468189) 846180014, int 0, int 0, r 8478235783 508512852, r 1311729495 1432422823, r (-10304129995) 1701304382, r (-48777925059) 3047939560, r 15336726248 1032824649, r (-45442868181) 3398467696, r 3065993473 597172653]⟩,
    ⟨.num (int 1), [r 185892177 718116043, int 0, int 0, r (-3185094517) 667107341, r (-477755414) 1098053517, r (-703635378) 230739211, r 5731566787 1027545527, r 5232866602 850066563, r (-4093664535) 808688257, r 3962137247 1805957418, r 65686358 487910083]⟩,
    ⟨.num (int 1), [r 403863854 491063109, int 0, int 0, r (-5068492393) 434740067, r (-411421997) 543043805, r 652783627 914296604, r 11173962825 925320556, r (-13158990841) 6184727034, r 3936647629 1978049680, r (-160528059) 685178525, r 248638103 1413531060, int 0]⟩,
    ⟨.str "", [r 14005451 335480064, int 0, int 0, int 0, int 0, r (-59238493) 1068277825, r 181606767 758867731, r 561292985 797845732, r (-1041891430) 1371343529, r 760417239 1151165299, r 118820643 751138087, r (-528747749) 2220607170, r 1 4]⟩]

/-- `AHE`, RK_Butcher_Table_Dictionary.py:210-215. -/
def tblAHE : Table Q21 :=
  [
    ⟨.num (int 0), []⟩,
    ⟨.num (int 1), [int 1]⟩,
    ⟨.str "HO", [r 1 2, r 1 2]⟩,
    ⟨.str "LO", [int 1, int 0]⟩]

/-- `ABS`, RK_Butcher_Table_Dictionary.py:219-226. -/
def tblABS : Table Q21 :=
  [
    ⟨.num (int 0), []⟩,
    ⟨.num (r 1 2), [r 1 2]⟩,
    ⟨.num (r 3 4), [int 0, r 3 4]⟩,
    ⟨.num (int 1), [r 2 9, r 1 3, r 4 9]⟩,
    ⟨.str "HO", [r 2 9, r 1 3, r 4 9, int 0]⟩,
    ⟨.str "LO", [r 7 24, r 1 4, r 1 3, r 1 8]⟩]

/-- `ARKF`, RK_Butcher_Table_Dictionary.py:230-239. -/
def tblARKF : Table Q21 :=
  [
    ⟨.num (int 0), []⟩,
    ⟨.num (r 1 4), [r 1 4]⟩,
    ⟨.num (r 3 8), [r 3 32, r 9 32]⟩,
    ⟨.num (r 12 13), [r 1932 2197, r (-7200) 2197, r 7296 2197]⟩,
    ⟨.num (int 1), [r 439 216, int (-8), r 3680 513, r (-845) 4104]⟩,
    ⟨.num (r 1 2), [r (-8) 27, int 2, r (-3544) 2565, r 1859 4104, r (-11) 40]⟩,
    ⟨.str "HO", [r 16 135, int 0, r 6656 12825, r 28561 56430, r (-9) 50, r 2 55]⟩,
    ⟨.str "LO", [r 25 216, int 0, r 1408 2565, r 2197 4104, r (-1) 5, int 0]⟩]

/-- `ACK`, RK_Butcher_Table_Dictionary.py:243-252. -/
def tblACK : Table Q21 :=
  [
    ⟨.num (int 0), []⟩,
    ⟨.num (r 1 5), [r 1 5]⟩,
    ⟨.num (r 3 10), [r 3 40, r 9 40]⟩,
    ⟨.num (r 3 5), [r 3 10, r (-9) 10, r 6 5]⟩,
    ⟨.num (int 1), [r (-11) 54, r 5 2, r (-70) 27, r 35 27]⟩,
    ⟨.num (r 7 8), [r 1631 55296, r 175 512, r 575 13824, r 44275 110592, r 253 4096]⟩,
    ⟨.str "HO", [r 37 378, int 0, r 250 621, r 125 594, int 0, r 512 1771]⟩,
    ⟨.str "LO", [r 2825 27648, int 0, r 18575 48384, r 13525 55296, r 277 14336, r 1 4]⟩]

/-- `ADP5`, RK_Butcher_Table_Dictionary.py:256-266. -/
def tblADP5 : Table Q21 :=
  [
    ⟨.num (int 0), []⟩,
    ⟨.num (r 1 5), [r 1 5]⟩,
    ⟨.num (r 3 10), [r 3 40, r 9 40]⟩,
    ⟨.num (r 4 5), [r 44 45, r (-56) 15, r 32 9]⟩,
    ⟨.num (r 8 9), [r 19372 6561, r (-25360) 2187, r 64448 6561, r (-212) 729]⟩,
    ⟨.num (int 1), [r 9017 3168, r (-355) 33, r 46732 5247, r 49 176, r (-5103) 18656]⟩,
    ⟨.num (int 1), [r 35 384, int 0, r 500 1113, r 125 192, r (-2187) 6784, r 11 84]⟩,
    ⟨.str "HO", [r 35 384, int 0, r 500 1113, r 125 192, r (-2187) 6784, r 11 84, int 0]⟩,
    ⟨.str "LO", [r 5179 57600, int 0, r 7571 16695, r 393 640, r (-92097) 339200, r 187 2100, r 1 40]⟩]

/-- `ADP8`, RK_Butcher_Table_Dictionary.py:270-286. -/
def tblADP8 : Table Q21 :=
  [
    ⟨.num (int 0), []⟩,
    ⟨.num (r 1 18), [r 1 18]⟩,
    ⟨.num (r 1 12), [r 1 48, r 1 16]⟩,
    ⟨.num (r 1 8), [r 1 32, int 0, r 3 32]⟩,
    ⟨.num (r 5 16), [r 5 16, int 0, r (-75) 64, r 75 64]⟩,
    ⟨.num (r 3 8), [r 3 80, int 0, int 0, r 3 16, r 3 20]⟩,
    ⟨.num (r 59 400), [r 29443841 614563906, int 0, int 0, r 77736538 692538347, r (-28693883) 1125000000, r 23124283 1800000000]⟩,
    ⟨.num (r 93 200), [r 16016141 946692911, int 0, int 0, r 61564180 158732637, r 22789713 633445777, r 545815736 2771057229, r (-180193667) 1043307555]⟩,
    ⟨.num (r 5490023248 9719169821), [r 39632708 573591083, int 0, int 0, r (-433636366) 683701615, r (-421739975) 2616292301, r 100302831 723423059, r 790204164 839813087, r 800635310 3783071287]⟩,
    ⟨.num (r 13 20), [r 246121993 1340847787, int 0, int 0, r (-37695042795) 15268766246, r (-309121744) 1061227803, r (-12992083) 490766935, r 6005943493 2108947869, r 393006217 1396673457, r 123872331 1001029789]⟩,
    ⟨.num (r 1201146811 1299019798), [r (-1028468189) 846180014, int 0, int 0, r 8478235783 508512852, r 1311729495 1432422823, r (-10304129995) 1701304382, r (-48777925059) 3047939560, r 15336726248 1032824649, r (-45442868181) 3398467696, r 3065993473 597172653]⟩,
    ⟨.num (int 1), [r 185892177 718116043, int 0, int 0, r (-3185094517) 667107341, r (-477755414) 1098053517, r (-703635378) 230739211, r 5731566787 1027545527, r 5232866602 850066563, r (-4093664535) 808688257, r 3962137247 1805957418, r 65686358 487910083]⟩,
    ⟨.num (int 1), [r 403863854 491063109, int 0, int 0, r (-5068492393) 434740067, r (-411421997) 543043805, r 652783627 914296604, r 11173962825 925320556, r (-13158990841) 6184727034, r 3936647629 1978049680, r (-160528059) 685178525, r 248638103 1413531060, int 0]⟩,
    ⟨.str "HO", [r 14005451 335480064, int 0, int 0, int 0, int 0, r (-59238493) 1068277825, r 181606767 758867731, r 561292985 797845732, r (-1041891430) 1371343529, r 760417239 1151165299, r 118820643 751138087, r (-528747749) 2220607170, r 1 4]⟩,
    ⟨.str "LO", [r 13451932 455176623, int 0, int 0, int 0, int 0, r (-808719846) 976000145, r 1757004468 5645159321, r 656045339 265891186, r (-3867574721) 1518517206, r 465885868 322736535, r 53011238 667516719, r 2 45, int 0]⟩]

/-- The dictionary returned by `generate_Butcher_tables()` without Adams–Bashforth
(RK_Butcher_Table_Dictionary.py:38-286): key, table, advertised order, in insertion order. -/
def butcherDict : List (String × Table Q21 × Nat) :=
  [
    ("Euler", tblEuler, 1),
    ("RK2 Heun", tblRK2Heun, 2),
    ("RK2 MP", tblRK2MP, 2),
    ("RK2 Ralston", tblRK2Ralston, 2),
    ("RK3", tblRK3, 3),
    ("RK3 Heun", tblRK3Heun, 3),
    ("RK3 Ralston", tblRK3Ralston, 3),
    ("SSPRK3", tblSSPRK3, 3),
    ("RK4", tblRK4, 4),
    ("DP5", tblDP5, 5),
    ("DP5alt", tblDP5alt, 5),
    ("CK5", tblCK5, 5),
    ("DP6", tblDP6, 6),
    ("L6", tblL6, 6),
    ("DP8", tblDP8, 8),
    ("AHE", tblAHE, 2),
    ("ABS", tblABS, 3),
    ("ARKF", tblARKF, 5),
    ("ACK", tblACK, 5),
    ("ADP5", tblADP5, 5),
    ("ADP8", tblADP8, 8)]
end Verif.MoL
