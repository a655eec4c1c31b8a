import Verif.CurviBC.Model
import Verif.Loop.SimpleProps
import Mathlib.Data.List.Nodup
import Mathlib.Data.List.Range
import Mathlib.Data.Fintype.Fin
import Mathlib.Tactic.FinCases
import Mathlib.Tactic.Linarith
import Mathlib.Tactic.Ring

/-! # Loops and addresses: lemmas -/
namespace Verif.CurviBC
open Verif.Loop

theorem idx_ext {p q : Idx} (h0 : p 0 = q 0) (h1 : p 1 = q 1) (h2 : p 2 = q 2) : p = q := by
  funext i; fin_cases i <;> assumption

theorem idx_eq_iff {p q : Idx} : (p 0 = q 0 ∧ p 1 = q 1 ∧ p 2 = q 2) ↔ p = q :=
  ⟨fun h => idx_ext h.1 h.2.1 h.2.2, fun h => by subst h; exact ⟨rfl, rfl, rfl⟩⟩

theorem mem_counter {a b i : ℤ} : i ∈ counter a b ↔ a ≤ i ∧ i < b := by
  unfold counter
  simp only [List.mem_map, List.mem_range]
  constructor
  · rintro ⟨k, hk, rfl⟩; omega
  · rintro ⟨h1, h2⟩; exact ⟨(i - a).toNat, by omega, by omega⟩

theorem nodup_counter (a b : ℤ) : (counter a b).Nodup := by
  unfold counter
  exact List.Nodup.map (fun x y h => by simpa using h) List.nodup_range

theorem length_counter (a b : ℤ) : (counter a b).length = (b - a).toNat := by simp [counter]

theorem mem_loop {lo hi p : Idx} : p ∈ loop lo hi ↔ ∀ d, lo d ≤ p d ∧ p d < hi d := by
  unfold loop
  simp only [List.mem_flatMap, List.mem_map, mem_counter]
  constructor
  · rintro ⟨i2, h2, i1, h1, i0, h0, rfl⟩ d
    fin_cases d <;> simpa
  · intro h
    exact ⟨p 2, h 2, p 1, h 1, p 0, h 0, idx_ext rfl rfl rfl⟩

theorem nodup_loop (lo hi : Idx) : (loop lo hi).Nodup := by
  unfold loop
  refine List.nodup_flatMap.2 ⟨fun i2 _ => List.nodup_flatMap.2 ⟨fun i1 _ => ?_, ?_⟩, ?_⟩
  · exact (nodup_counter _ _).map fun x y h => by simpa using congrFun h 0
  · refine (nodup_counter _ _).imp fun {a b} hab => ?_
    intro p hp hq
    simp only [List.mem_map] at hp hq
    obtain ⟨_, _, rfl⟩ := hp
    obtain ⟨_, _, e⟩ := hq
    exact hab (by simpa using (congrFun e 1).symm)
  · refine (nodup_counter _ _).imp fun {a b} hab => ?_
    intro p hp hq
    simp only [List.mem_flatMap, List.mem_map] at hp hq
    obtain ⟨_, _, _, _, rfl⟩ := hp
    obtain ⟨_, _, _, _, e⟩ := hq
    exact hab (by simpa using (congrFun e 2).symm)

theorem length_loop (lo hi : Idx) :
    (loop lo hi).length = (hi 0 - lo 0).toNat * (hi 1 - lo 1).toNat * (hi 2 - lo 2).toNat := by
  unfold loop
  simp only [List.length_flatMap, List.length_map, length_counter, List.map_const', List.sum_replicate_nat]
  ring

/-! ### Addresses -/

/-- A point of the grid, ghost zones included. -/
def Grid.Has (G : Grid) (p : Idx) : Prop := ∀ d, 0 ≤ p d ∧ p d < G.n d

theorem Grid.pt_at (G : Grid) (gf : ℕ) (p : Idx) :
    G.pt gf (G.at p) = p 0 + G.n 0 * (p 1 + G.n 1 * (p 2 + G.n 2 * gf)) := by
  unfold Grid.pt Grid.at idx4pt idx3; ring

theorem mixed_inj {n a b x y : ℤ} (ha : 0 ≤ a) (ha' : a < n) (hb : 0 ≤ b) (hb' : b < n) (h : a + n * x = b + n * y) :
    a = b ∧ x = y := by
  have h1 : (a + n * x) % n = a := by rw [Int.add_mul_emod_self_left, Int.emod_eq_of_lt ha ha']
  have h2 : (b + n * y) % n = b := by rw [Int.add_mul_emod_self_left, Int.emod_eq_of_lt hb hb']
  have e : a = b := by rw [← h1, h, h2]
  subst e
  exact ⟨rfl, by have : n * x = n * y := by linarith
                 exact (Int.mul_eq_mul_left_iff (by omega)).1 this⟩

theorem Grid.pt_inj {G : Grid} {gf gf' : ℕ} {p q : Idx} (hp : G.Has p) (hq : G.Has q)
    (h : G.pt gf (G.at p) = G.pt gf' (G.at q)) : gf = gf' ∧ p = q := by
  rw [pt_at, pt_at] at h
  obtain ⟨e0, h⟩ := mixed_inj (hp 0).1 (hp 0).2 (hq 0).1 (hq 0).2 h
  obtain ⟨e1, h⟩ := mixed_inj (hp 1).1 (hp 1).2 (hq 1).1 (hq 1).2 h
  obtain ⟨e2, h⟩ := mixed_inj (hp 2).1 (hp 2).2 (hq 2).1 (hq 2).2 h
  exact ⟨by exact_mod_cast h, idx_ext e0 e1 e2⟩

theorem Grid.at_inj {G : Grid} {p q : Idx} (hp : G.Has p) (hq : G.Has q) (h : G.at p = G.at q) : p = q :=
  (pt_inj (gf := 0) (gf' := 0) hp hq (by rw [h])).2

end Verif.CurviBC
