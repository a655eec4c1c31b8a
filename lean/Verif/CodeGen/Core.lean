import Verif.CodeGen.Model
import Verif.CSE.PostProps
import Verif.CSE.PreProps

/-!
# `c_codegen`: what is assumed of SymPy's `cse`, and lemmas on the post-processed result
-/
namespace Verif.CodeGen
open Verif.Py Verif.Sympy Verif.Sympy.Expr Verif.CSE

variable {K : Type} [Field K]

/-! ## What is assumed of `sp.cse` -/

/-- The names made by `numbered_symbols(prefix + "tmp")`. -/
def IsTemp (pre n : Str) : Prop := ∃ k : ℕ, n = pre ++ (c% "tmp") ++ dec k

def rhsOf : Out → Expr
  | .ex e => e
  | .eq _ e => e

/-- The symbols of an element of the list. -/
def symsOf : Out → List Str
  | .ex e => e.free
  | .eq x e => x :: e.free

/-- Both are expressions, or both equations for the same symbol. -/
def SameKind : Out → Out → Prop
  | .ex _, .ex _ => True
  | .eq x _, .eq y _ => x = y
  | _, _ => False

/-- What is assumed of the result `(R, red)` of `sp.cse` on the list `ins`: the definitions `R` have distinct new names
of the given form, each uses only earlier ones; every element of `red` has the value of the element of `ins` in its
place if the definitions hold; and a definition stands for something made of the symbols `D` of the expressions in
which it is used. -/
structure CseOk (I : Interp K) (pre : Str) (ins : List Out) (R : List Repl) (red : List Out) : Prop where
  temp : ∀ n ∈ names R, IsTemp pre n
  new : ∀ n ∈ names R, ∀ o ∈ ins, n ∉ symsOf o
  nodup : (names R).Nodup
  ordered : Ordered (names R) [] R
  kind : List.Forall₂ SameKind ins red
  value : List.Forall₂ (fun i o => ∀ ρ : Str → K, Sol I ρ R → eval I ρ (rhsOf o) = eval I ρ (rhsOf i)) ins red
  deps : ∃ D : Str → List Str,
    (∀ p ∈ R, ∀ n ∈ p.2.free, (n ∈ names R → ∀ m ∈ D n, m ∈ D p.1) ∧ (n ∉ names R → n ∈ D p.1)) ∧
    (∀ p ∈ R, ∀ m ∈ D p.1, ∃ o ∈ ins, m ∈ (rhsOf o).free) ∧
    List.Forall₂ (fun i o => ∀ n ∈ (rhsOf o).free,
      (n ∈ names R → ∀ m ∈ D n, m ∈ (rhsOf i).free) ∧ (n ∉ names R → n ∈ (rhsOf i).free)) ins red

/-! ## Symbols after post-processing -/

/-- Post-processing introduces no symbol. -/
theorem postprocess_free {I : Interp K} {canon : Expr → Expr} (hc : CanonOk I canon) {str : Expr → Str}
    {replaced : List Repl} {reduced : List Out}
    (hnd : (names (replaced ++ eqsOf reduced)).Nodup) (hac : Acyclic (replaced ++ eqsOf reduced))
    {R : List Repl} {o : List Expr} (h : postprocess canon str replaced reduced = .ok (R, o)) (x : Str)
    (h0 : x ∉ names (replaced ++ eqsOf reduced)) (h1 : ∀ p ∈ replaced ++ eqsOf reduced, x ∉ p.2.free)
    (h2 : ∀ e ∈ exsOf reduced, x ∉ e.free) : (∀ p ∈ R, x ∉ p.2.free) ∧ ∀ e ∈ o, x ∉ e.free := by
  obtain ⟨rank, hrank⟩ := hac
  set E := replaced ++ eqsOf reduced with hE
  have g0 : Good (x :: names E) rank E (exsOf reduced) := by
    refine ⟨hnd, fun n h => List.mem_cons_of_mem _ h, fun p hp n hn hT => ?_, fun p hp n hn hT => ?_,
      fun p hp n hn hT => ?_⟩
    · rcases List.mem_cons.1 hT with rfl | hT
      · exact absurd hn (h1 p hp)
      · exact hT
    · rcases List.mem_cons.1 hT with rfl | hT
      · exact absurd hn (h2 p hp)
      · exact hT
    · rcases List.mem_cons.1 hT with rfl | hT
      · exact absurd hn (h1 p hp)
      · exact hrank p hp n hn hT
  have g0' : Good (names E) rank E (exsOf reduced) :=
    ⟨hnd, fun n h => h, fun p _ n _ h => h, fun p _ n _ h => h, hrank⟩
  obtain ⟨g1, -, -, -⟩ := constLoop_spec hc E.length (E, exsOf reduced) g0 le_rfl
  obtain ⟨g1', -, -, -⟩ := constLoop_spec hc E.length (E, exsOf reduced) g0' le_rfl
  obtain ⟨r, r1, r2, r3⟩ := sortRepl_spec g1
  obtain ⟨r', r1', r2', r3'⟩ := sortRepl_spec g1'
  obtain ⟨R1, o1, b1, b2, b3, -, -⟩ := backLoop_spec hc str r.length 0 (g1.perm r2) r3 (by omega)
  have er : r' = r := by rw [r1] at r1'; exact (Except.ok.inj r1').symm
  subst er
  obtain ⟨R2, o2, b1', b2', b3', -, -⟩ := backLoop_spec hc str r'.length 0 (g1'.perm r2') r3' (by omega)
  have e2 : R2 = R1 ∧ o2 = o1 := by rw [b1] at b1'; simpa using (Except.ok.inj b1').symm
  obtain ⟨rfl, rfl⟩ := e2
  have hx : x ∉ names R2 := fun h => h0 (b2'.sub x h)
  have hp : R = (prune (o2.flatMap free) R2.reverse).reverse ∧ o = o2 := by
    unfold postprocess at h
    rw [moveEqs_eq] at h
    simp only [← hE, r1, b1] at h
    have := Except.ok.inj h
    simp only [Prod.mk.injEq] at this
    exact ⟨this.1.symm, this.2.symm⟩
  obtain ⟨rfl, rfl⟩ := hp
  refine ⟨fun p hp hf => ?_, fun e he hf => hx (b2.closedOut e he x hf (by simp))⟩
  have : p ∈ R2 := List.mem_reverse.1 ((prune_sublist _ _).subset (List.mem_reverse.1 hp))
  exact hx (b2.closed p this x hf (by simp))

/-! ## Equations after `sp.cse` -/

theorem mem_eqsOf {l : List Out} {x : Str} {e : Expr} : (x, e) ∈ eqsOf l ↔ Out.eq x e ∈ l := by
  unfold eqsOf
  rw [List.mem_filterMap]
  constructor
  · rintro ⟨o, ho, h⟩
    cases o with
    | ex => simp at h
    | eq y r => simp at h; obtain ⟨rfl, rfl⟩ := h; exact ho
  · intro h
    exact ⟨_, h, rfl⟩

theorem mem_exsOf {l : List Out} {e : Expr} : e ∈ exsOf l ↔ Out.ex e ∈ l := by
  unfold exsOf
  rw [List.mem_filterMap]
  constructor
  · rintro ⟨o, ho, h⟩
    cases o with
    | ex => simp at h; subst h; exact ho
    | eq y r => simp at h
  · intro h
    exact ⟨_, h, rfl⟩

theorem names_eqsOf_kind {a b : List Out} (h : List.Forall₂ SameKind a b) : names (eqsOf b) = names (eqsOf a) := by
  induction h with
  | nil => rfl
  | @cons x y l m hk _ ih =>
    cases x <;> cases y <;> simp_all [SameKind, eqsOf, names]

theorem exsOf_map_kind {I : Interp K} {ρ : Str → K} {a b : List Out} (h : List.Forall₂ SameKind a b)
    (hv : List.Forall₂ (fun i o => eval I ρ (rhsOf o) = eval I ρ (rhsOf i)) a b) :
    (exsOf b).map (eval I ρ) = (exsOf a).map (eval I ρ) := by
  induction h with
  | nil => rfl
  | @cons x y l m hk _ ih =>
    obtain ⟨h1, h2⟩ := List.forall₂_cons.1 hv
    have := ih h2
    cases x <;> cases y <;> simp_all [SameKind, exsOf, rhsOf]

theorem forall2_mem {α β : Type} {P : α → β → Prop} {a : List α} {b : List β} (h : List.Forall₂ P a b) {y : β}
    (hy : y ∈ b) : ∃ x ∈ a, P x y := by
  induction h with
  | nil => cases hy
  | cons h _ ih =>
    rcases List.mem_cons.1 hy with rfl | hy
    · exact ⟨_, List.mem_cons_self, h⟩
    · obtain ⟨x, hx, hp⟩ := ih hy
      exact ⟨x, List.mem_cons_of_mem _ hx, hp⟩

theorem forall2_and {α β : Type} {P Q : α → β → Prop} {a : List α} {b : List β} (h : List.Forall₂ P a b)
    (h' : List.Forall₂ Q a b) : List.Forall₂ (fun x y => P x y ∧ Q x y) a b := by
  induction h with
  | nil => exact .nil
  | cons h _ ih =>
    obtain ⟨h1, h2⟩ := List.forall₂_cons.1 h'
    exact .cons ⟨h, h1⟩ (ih h2)

/-- The greatest value of `f` on a list. -/
def sup (f : Str → ℕ) (l : List Str) : ℕ := (l.map f).foldr max 0

theorem le_sup {f : Str → ℕ} {l : List Str} {n : Str} (h : n ∈ l) : f n ≤ sup f l := by
  induction l with
  | nil => cases h
  | cons a l ih =>
    simp only [sup, List.map_cons, List.foldr_cons]
    rcases List.mem_cons.1 h with rfl | h
    · exact le_max_left _ _
    · exact le_trans (ih h) (le_max_right _ _)

theorem sup_le {f : Str → ℕ} {l : List Str} {b : ℕ} (h : ∀ n ∈ l, f n ≤ b) : sup f l ≤ b := by
  induction l with
  | nil => exact Nat.zero_le _
  | cons a l ih =>
    simp only [sup, List.map_cons, List.foldr_cons]
    exact max_le (h a (by simp)) (ih fun n hn => h n (by simp [hn]))

theorem ordered_idx {T : List Str} : ∀ (R : List Repl) (seen : List Str), Ordered T seen R → (names R).Nodup →
    (∀ n ∈ names R, n ∈ T) →
    ∀ p ∈ R, ∀ n ∈ p.2.free, n ∈ names R → n ∉ seen → (names R).idxOf n < (names R).idxOf p.1
  | [], _, _, _, _, p, hp, _, _, _, _ => by cases hp
  | (x, e) :: R, seen, ho, hnd, hT, p, hp, n, hn, hm, hs => by
    have hx : x ∉ names R := (List.nodup_cons.1 (show (x :: names R).Nodup from hnd)).1
    rcases List.mem_cons.1 hp with rfl | hp
    · exact absurd (ho.1 n hn (hT n hm)) hs
    · have hpx : p.1 ≠ x := fun h => hx (h ▸ List.mem_map.2 ⟨p, hp, rfl⟩)
      have e1 : (names ((x, e) :: R)).idxOf p.1 = (names R).idxOf p.1 + 1 := by
        show (x :: names R).idxOf p.1 = _
        rw [List.idxOf_cons_ne _ (Ne.symm hpx)]
      by_cases hnx : n = x
      · subst hnx
        rw [e1]
        show (n :: names R).idxOf n < _
        rw [List.idxOf_cons_self]; omega
      · have e2 : (names ((x, e) :: R)).idxOf n = (names R).idxOf n + 1 := by
          show (x :: names R).idxOf n = _
          rw [List.idxOf_cons_ne _ (Ne.symm hnx)]
        rw [e1, e2]
        have hm' : n ∈ names R := by
          rcases List.mem_cons.1 (show n ∈ x :: names R from hm) with h | h
          · exact absurd h hnx
          · exact h
        have := ordered_idx R (x :: seen) ho.2 (List.nodup_cons.1 (show (x :: names R).Nodup from hnd)).2
          (fun n hn => hT n (List.mem_cons_of_mem _ hn)) p hp n hn hm' (by simp [hnx, hs])
        omega

section
variable {I : Interp K} {pre : Str} {ins red : List Out} {R : List Repl}

theorem CseOk.names_all (h : CseOk I pre ins R red) : names (R ++ eqsOf red) = names R ++ names (eqsOf ins) := by
  rw [← names_eqsOf_kind h.kind]; simp [names]

theorem mem_names_eqs {ins : List Out} {n : Str} (h : n ∈ names (eqsOf ins)) : ∃ o ∈ ins, n ∈ symsOf o := by
  obtain ⟨p, hp, rfl⟩ := List.mem_map.1 h
  exact ⟨_, mem_eqsOf.1 hp, by simp [symsOf]⟩

theorem CseOk.all_nodup (h : CseOk I pre ins R red) (hnd : (names (eqsOf ins)).Nodup) :
    (names (R ++ eqsOf red)).Nodup := by
  rw [h.names_all]
  refine List.nodup_append'.2 ⟨h.nodup, hnd, ?_⟩
  intro n hn hm
  obtain ⟨o, ho, hs⟩ := mem_names_eqs hm
  exact h.new n hn o ho hs

/-- If the equations put in are not cyclic, neither are they together with the definitions made by `sp.cse`. -/
theorem CseOk.acyclic (h : CseOk I pre ins R red) (hac : Acyclic (eqsOf ins)) : Acyclic (R ++ eqsOf red) := by
  obtain ⟨r0, hr0⟩ := hac
  obtain ⟨D, hD1, hD2, hD3⟩ := h.deps
  set S := names (eqsOf ins) with hS
  set N := R.length + 1 with hN
  let w : Str → ℕ := fun n => if n ∈ S then r0 n + 1 else 0
  have hdis : ∀ n ∈ names R, n ∉ S := by
    intro n hn hm
    obtain ⟨o, ho, hs⟩ := mem_names_eqs hm
    exact h.new n hn o ho hs
  refine ⟨fun n => if n ∈ names R then sup w (D n) * N + (names R).idxOf n + 1 else w n * N, ?_⟩
  intro p hp n hn hmem
  rw [h.names_all, List.mem_append] at hmem
  rcases List.mem_append.1 hp with hp | hp
  · have hpn : p.1 ∈ names R := List.mem_map.2 ⟨p, hp, rfl⟩
    simp only [hpn, if_true]
    by_cases hnR : n ∈ names R
    · simp only [hnR, if_true]
      have h1 := ordered_idx R [] h.ordered h.nodup (fun _ h => h) p hp n hn hnR (by simp)
      have h2 : sup w (D n) ≤ sup w (D p.1) := sup_le fun m hm => le_sup ((hD1 p hp n hn).1 hnR m hm)
      have h3 : sup w (D n) * N ≤ sup w (D p.1) * N := Nat.mul_le_mul_right _ h2
      omega
    · simp only [hnR, if_false]
      have h2 : w n ≤ sup w (D p.1) := le_sup ((hD1 p hp n hn).2 hnR)
      have h3 : w n * N ≤ sup w (D p.1) * N := Nat.mul_le_mul_right _ h2
      omega
  · obtain ⟨x, e⟩ := p
    have hx : x ∈ S := by
      rw [hS, ← names_eqsOf_kind h.kind]; exact List.mem_map.2 ⟨_, hp, rfl⟩
    have hxR : x ∉ names R := fun hh => hdis x hh hx
    obtain ⟨i, hi, hk, hd⟩ := forall2_mem (forall2_and h.kind hD3) (mem_eqsOf.1 hp)
    obtain ⟨e0, rfl⟩ : ∃ e0, i = .eq x e0 := by
      cases i with
      | ex => simp [SameKind] at hk
      | eq y r => exact ⟨r, by rw [SameKind] at hk; rw [hk]⟩
    have hxw : w x = r0 x + 1 := by simp [w, hx]
    have hlt : ∀ m ∈ e0.free, w m ≤ r0 x := by
      intro m hm
      by_cases hmS : m ∈ S
      · have := hr0 (x, e0) (mem_eqsOf.2 hi) m hm hmS
        simp only [w, hmS, if_true]
        exact this
      · simp [w, hmS]
    simp only [hxR, if_false, hxw]
    by_cases hnR : n ∈ names R
    · simp only [hnR, if_true]
      have h2 : sup w (D n) ≤ r0 x := sup_le fun m hm => hlt m ((hd n hn).1 hnR m hm)
      have h3 : sup w (D n) * N ≤ r0 x * N := Nat.mul_le_mul_right _ h2
      have h4 : (names R).idxOf n < R.length := by
        have := List.idxOf_lt_length_iff.2 hnR
        simpa [names] using this
      have h5 : (r0 x + 1) * N = r0 x * N + N := by ring
      omega
    · simp only [hnR, if_false]
      have h2 : w n ≤ r0 x := hlt n ((hd n hn).2 hnR)
      have h3 : w n * N ≤ r0 x * N := Nat.mul_le_mul_right _ h2
      have h5 : (r0 x + 1) * N = r0 x * N + N := by ring
      omega

/-- A valuation that satisfies the equations put in extends to one that satisfies all. -/
theorem CseOk.extend (h : CseOk I pre ins R red) (ρ : Str → K) (hρ : Sol I ρ (eqsOf ins)) :
    (∀ n, n ∉ names R → exec I R ρ n = ρ n) ∧ Sol I (exec I R ρ) (R ++ eqsOf red) ∧
      (exsOf red).map (eval I (exec I R ρ)) = (exsOf ins).map (eval I ρ) := by
  have h1 : ∀ n, n ∉ names R → exec I R ρ n = ρ n := fun n hn => exec_not_mem R ρ n hn
  have h2 : Sol I (exec I R ρ) R := exec_sol (T := names R) R [] ρ (by simpa using h.nodup) (fun _ h => h) h.ordered
  have h3 : ∀ o ∈ ins, eval I (exec I R ρ) (rhsOf o) = eval I ρ (rhsOf o) := by
    intro o ho
    apply eval_congr
    intro n hn
    refine h1 n fun hh => h.new n hh o ho ?_
    cases o with
    | ex => exact hn
    | eq => exact List.mem_cons_of_mem _ hn
  have hval : List.Forall₂ (fun i o => eval I (exec I R ρ) (rhsOf o) = eval I (exec I R ρ) (rhsOf i)) ins red :=
    h.value.imp fun i o hh => hh _ h2
  refine ⟨h1, ?_, ?_⟩
  · intro p hp
    rcases List.mem_append.1 hp with hp | hp
    · exact h2 p hp
    · obtain ⟨x, e⟩ := p
      obtain ⟨i, hi, hk, hv⟩ := forall2_mem (forall2_and h.kind hval) (mem_eqsOf.1 hp)
      obtain ⟨e0, rfl⟩ : ∃ e0, i = .eq x e0 := by
        cases i with
        | ex => simp [SameKind] at hk
        | eq y r => exact ⟨r, by rw [SameKind] at hk; rw [hk]⟩
      have hxR : x ∉ names R := fun hh => h.new x hh _ hi (by simp [symsOf])
      simp only [rhsOf] at hv
      show exec I R ρ x = eval I (exec I R ρ) e
      rw [hv, h1 x hxR, hρ (x, e0) (mem_eqsOf.2 hi)]
      exact (h3 _ hi).symm
  · rw [exsOf_map_kind h.kind hval]
    apply List.map_congr_left
    intro e he
    exact h3 _ (mem_exsOf.1 he)

/-- A symbol that does not occur before `sp.cse` and is no temporary does not occur after it. -/
theorem CseOk.fresh (h : CseOk I pre ins R red) (x : Str) (hx : x ∉ names R) (hi : ∀ o ∈ ins, x ∉ symsOf o) :
    x ∉ names (R ++ eqsOf red) ∧ (∀ p ∈ R ++ eqsOf red, x ∉ p.2.free) ∧ ∀ e ∈ exsOf red, x ∉ e.free := by
  obtain ⟨D, hD1, hD2, hD3⟩ := h.deps
  have hr : ∀ o ∈ ins, x ∉ (rhsOf o).free := by
    intro o ho hh
    refine hi o ho ?_
    cases o with
    | ex => exact hh
    | eq => exact List.mem_cons_of_mem _ hh
  have hred : ∀ o ∈ red, x ∉ (rhsOf o).free := by
    intro o ho hh
    obtain ⟨i, hi', hd⟩ := forall2_mem hD3 ho
    exact hr i hi' ((hd x hh).2 hx)
  refine ⟨?_, ?_, ?_⟩
  · rw [h.names_all, List.mem_append]
    rintro (hh | hh)
    · exact hx hh
    · obtain ⟨o, ho, hs⟩ := mem_names_eqs hh
      exact hi o ho hs
  · intro p hp hh
    rcases List.mem_append.1 hp with hp | hp
    · obtain ⟨o, ho, hs⟩ := hD2 p hp x ((hD1 p hp x hh).2 hx)
      exact hr o ho hs
    · exact hred _ (mem_eqsOf.1 (show (p.1, p.2) ∈ _ from hp)) hh
  · intro e he hh
    exact hred _ (mem_exsOf.1 he) hh

end

end Verif.CodeGen
