import Verif.SuperB.Records
import Verif.SuperB.CharesProps
import Mathlib.Tactic.Ring
import Mathlib.Algebra.BigOperators.Group.List.Basic

/-!
# Diagnostics files written by all chares together (C112)
-/
namespace Verif.SuperB.Records
open Verif.SuperB.Inner (Own)

/-! ### Specification -/

/-- A number whose exponent has two digits. -/
def Val.Short : Val → Prop
  | .finite _ _ _ e => e.val < 100
  | _ => False

/-- The text that the file should hold: the lines of the points in order, each from the chare that owns the point. -/
def wanted (O : Own) (pts : List ℕ) (vals : ℕ → ℕ → List Val) : List Char := pts.flatMap fun p => line (vals (O.chare p) (O.loc p))

/-! ### Lemmas -/

theorem text_length {v : Val} (h : v.Short) : v.text.length = 22 := by
  cases v with
  | finite n d en e =>
    have h' : e.val < 100 := h
    simp [Val.text, h']
  | nan => exact absurd h (by simp [Val.Short])
  | inf n => exact absurd h (by simp [Val.Short])

theorem line_length : ∀ vs : List Val, (∀ v ∈ vs, v.Short) → vs ≠ [] → (line vs).length = recSize vs.length
  | [], _, h => absurd rfl h
  | [v], hs, _ => by simp [line, recSize, text_length (hs v (by simp))]
  | v :: w :: vs, hs, _ => by
    have ih := line_length (w :: vs) (fun v' h => hs v' (by simp at h ⊢; tauto)) (by simp)
    have e : line (v :: w :: vs) = v.text ++ [' '] ++ line (w :: vs) := by
      simp [line, List.intersperse]
    rw [e]
    simp only [List.length_append, ih, text_length (hs v (by simp)), List.length_cons, List.length_nil, recSize]
    ring

theorem fill_length (O : Own) (this size : ℕ) : ∀ (pts : List ℕ) (g : ℕ), (fill O this size g pts).length = pts.countP fun p => O.chare p = this
  | [], _ => rfl
  | p :: ps, g => by
    unfold fill
    rw [List.countP_cons]
    split
    · rename_i h; simp [h, fill_length O this size ps]
    · rename_i h; simp [h, fill_length O this size ps]

/-- **C112** (arrays): the arrays of a chare are exactly filled. -/
theorem C112_arrays (O : Own) (this size : ℕ) (pts : List ℕ) : (fill O this size 0 pts).length = count O this pts := by
  rw [fill_length]
  have key : ∀ (pts : List ℕ) (n : ℕ), pts.foldl (fun n p => if O.chare p = this then n + 1 else n) n = n + pts.countP fun p => O.chare p = this := by
    intro pts
    induction pts with
    | nil => intro n; rfl
    | cons p l ih =>
      intro n
      rw [List.foldl_cons, ih, List.countP_cons]
      by_cases h : O.chare p = this
      · simp [h]; omega
      · simp [h]
  rw [count, key, Nat.zero_add]

theorem flatMap_single {α : Type} (x : α) (tot c : ℕ) (h : c < tot) : ((List.range tot).flatMap fun a => if c = a then [x] else []) = [x] := by
  induction tot with
  | zero => omega
  | succ n ih =>
    rw [List.range_succ, List.flatMap_append]
    by_cases hc : c = n
    · subst hc
      have : ((List.range c).flatMap fun a => if c = a then [x] else []) = [] := by
        rw [List.flatMap_eq_nil_iff]
        intro a ha
        rw [List.mem_range] at ha
        rw [if_neg (by omega)]
      rw [this]
      simp
    · rw [ih (by omega)]
      simp [hc]

/-- **C112** (each record once): whatever the distribution of the points, the chares together write one record for each point, at the position of the
point in the list. -/
theorem C112_once (O : Own) (size : ℕ) (pts : List ℕ) (vals : ℕ → ℕ → List Val) (junk : ℕ → ℕ → Char) (hlt : ∀ p ∈ pts, O.chare p < O.tot) :
    ((List.range O.tot).flatMap (writes O size pts vals junk)).Perm
      (pts.zipIdx.map fun pk => ⟨pk.2 * size, buffer size (line (vals (O.chare pk.1) (O.loc pk.1))) (junk (pk.2 * size))⟩) := by
  have key : ∀ (pts : List ℕ) (g : ℕ), (∀ p ∈ pts, O.chare p < O.tot) →
      ((List.range O.tot).flatMap fun c => (fill O c size g pts).map fun lo =>
        (⟨lo.2, buffer size (line (vals c lo.1)) (junk lo.2)⟩ : Write)).Perm
      ((pts.zipIdx g).map fun pk => ⟨pk.2 * size, buffer size (line (vals (O.chare pk.1) (O.loc pk.1))) (junk (pk.2 * size))⟩) := by
    intro pts
    induction pts with
    | nil => intro g _; simp [fill]
    | cons p l ih =>
      intro g hl
      have e : (fun c => (fill O c size g (p :: l)).map fun lo => (⟨lo.2, buffer size (line (vals c lo.1)) (junk lo.2)⟩ : Write)) =
          fun c => (if O.chare p = c then [(⟨g * size, buffer size (line (vals (O.chare p) (O.loc p))) (junk (g * size))⟩ : Write)] else []) ++
            (fill O c size (g + 1) l).map fun lo => (⟨lo.2, buffer size (line (vals c lo.1)) (junk lo.2)⟩ : Write) := by
        funext c
        by_cases h : O.chare p = c
        · subst h; simp [fill]
        · simp [fill, h]
      rw [e, List.zipIdx_cons, List.map_cons]
      refine (List.flatMap_append_perm _ _ _).symm.trans ?_
      rw [flatMap_single _ _ _ (hl p (by simp))]
      exact List.Perm.cons _ (ih (g + 1) fun q hq => hl q (by simp [hq]))
  exact key pts 0 hlt

theorem flatMap_get {α : Type} {β : Type} (f : α → List β) (n : ℕ) : ∀ (l : List α), (∀ x ∈ l, (f x).length = n) → ∀ (k j : ℕ) (x : α), l[k]? = some x → j < n →
    (l.flatMap f)[k * n + j]? = (f x)[j]?
  | [], _, k, j, x, h, _ => by simp at h
  | y :: l, hl, 0, j, x, h, hj => by
    simp at h
    subst h
    rw [List.flatMap_cons, Nat.zero_mul, Nat.zero_add, List.getElem?_append_left (by rw [hl y (by simp)]; exact hj)]
  | y :: l, hl, k + 1, j, x, h, hj => by
    have hy := hl y (by simp)
    rw [List.flatMap_cons, List.getElem?_append_right (by rw [hy, Nat.succ_mul]; omega), hy]
    have : (k + 1) * n + j - n = k * n + j := by rw [Nat.succ_mul]; omega
    rw [this]
    exact flatMap_get f n l (fun x hx => hl x (by simp [hx])) k j x (by simpa using h) hj

/-- Records that agree with a text give the text, in any order. -/
theorem put_all (size : ℕ) (T : ℕ → Option Char) : ∀ (ws : List Write) (file : ℕ → Option Char),
    (∀ w ∈ ws, ∀ j < size, T (w.off + j) = some (w.bytes j)) →
    (∀ i, file i = T i → (ws.foldl (put size) file) i = T i) ∧
    (∀ i, (∃ w ∈ ws, w.off ≤ i ∧ i < w.off + size) → (ws.foldl (put size) file) i = T i) ∧
    ∀ i, (∀ w ∈ ws, ¬ (w.off ≤ i ∧ i < w.off + size)) → (ws.foldl (put size) file) i = file i
  | [], file, _ => ⟨fun _ h => h, fun _ h => by simp at h, fun _ _ => rfl⟩
  | w :: ws, file, h => by
    obtain ⟨i1, i2, i3⟩ := put_all size T ws (put size file w) fun w' h' => h w' (by simp [h'])
    have hw : ∀ i, w.off ≤ i → i < w.off + size → put size file w i = T i := fun i h1 h2 => by
      rw [put, if_pos ⟨h1, h2⟩, ← h w (by simp) (i - w.off) (by omega)]
      congr 1
      omega
    refine ⟨fun i hi => i1 i ?_, fun i hi => ?_, fun i hi => ?_⟩
    · by_cases hc : w.off ≤ i ∧ i < w.off + size
      · exact hw i hc.1 hc.2
      · rw [put, if_neg hc]; exact hi
    · obtain ⟨w', hm, h1, h2⟩ := hi
      rcases List.mem_cons.1 hm with rfl | hm
      · exact i1 i (hw i h1 h2)
      · exact i2 i ⟨w', hm, h1, h2⟩
    · rw [List.foldl_cons, i3 i fun w' hm => hi w' (by simp [hm]), put, if_neg (hi w (by simp))]

/-! ### Claims -/

/-- **C112** (contents; partial: exponents of two digits; missing: other numbers, for which it is false): for every list of points, distribution and
order of the writes the file holds the lines of the points in order; its length is that of the session, and nothing else is written. -/
theorem C112_file_partial (O : Own) (fields : ℕ) (hf : 0 < fields) (pts : List ℕ) (vals : ℕ → ℕ → List Val) (junk : ℕ → ℕ → Char)
    (hlt : ∀ p ∈ pts, O.chare p < O.tot)
    (hv : ∀ p ∈ pts, (vals (O.chare p) (O.loc p)).length = fields ∧ ∀ v ∈ vals (O.chare p) (O.loc p), v.Short)
    (ws : List Write) (hws : ws.Perm ((List.range O.tot).flatMap (writes O (recSize fields) pts vals junk))) (file : ℕ → Option Char) :
    (wanted O pts vals).length = sessionSize fields pts.length ∧
    (∀ i < sessionSize fields pts.length, (ws.foldl (put (recSize fields)) file) i = (wanted O pts vals)[i]?) ∧
    ∀ i, sessionSize fields pts.length ≤ i → (ws.foldl (put (recSize fields)) file) i = file i := by
  have hline : ∀ p ∈ pts, (line (vals (O.chare p) (O.loc p))).length = recSize fields := fun p hp => by
    rw [line_length _ (hv p hp).2 (fun h => by rw [← (hv p hp).1, h] at hf; simp at hf), (hv p hp).1]
  have hlen : (wanted O pts vals).length = sessionSize fields pts.length := by
    unfold wanted sessionSize
    rw [List.length_flatMap, List.map_congr_left hline, List.map_const', List.sum_replicate]
    simp only [recSize, smul_eq_mul]
    ring
  have hmem : ∀ w, w ∈ ws ↔ ∃ k p, pts[k]? = some p ∧
      w = ⟨k * recSize fields, buffer (recSize fields) (line (vals (O.chare p) (O.loc p))) (junk (k * recSize fields))⟩ := fun w => by
    rw [(hws.trans (C112_once O _ pts vals junk hlt)).mem_iff, List.mem_map]
    constructor
    · rintro ⟨⟨p, k⟩, h1, rfl⟩
      rw [List.mk_mem_zipIdx_iff_getElem?] at h1
      exact ⟨k, p, h1, rfl⟩
    · rintro ⟨k, p, h1, rfl⟩
      exact ⟨(p, k), List.mk_mem_zipIdx_iff_getElem?.2 h1, rfl⟩
  obtain ⟨-, e2, e3⟩ := put_all (recSize fields) (fun i => (wanted O pts vals)[i]?) ws file (by
    intro w hw j hj
    obtain ⟨k, p, h1, rfl⟩ := (hmem w).1 hw
    dsimp only
    have hp := hline p (List.mem_of_getElem? h1)
    rw [wanted, flatMap_get _ (recSize fields) pts hline k j p h1 hj, buffer, if_pos (by rw [hp, Nat.min_self]; exact hj),
      List.getElem?_eq_getElem (by rw [hp]; exact hj), Option.getD_some])
  have hkn : ∀ (k : ℕ) (p : ℕ), pts[k]? = some p → k < pts.length := fun k p h => by
    by_contra hc
    rw [List.getElem?_eq_none (by omega)] at h
    simp at h
  refine ⟨hlen, fun i hi => e2 i ?_, fun i hi => e3 i ?_⟩
  · have hpos : 0 < recSize fields := by unfold recSize; omega
    have hk : i / recSize fields < pts.length := by
      rw [Nat.div_lt_iff_lt_mul hpos]
      unfold sessionSize at hi
      unfold recSize
      calc i < 23 * fields * pts.length := hi
        _ = pts.length * (23 * fields) := by ring
    refine ⟨_, (hmem _).2 ⟨i / recSize fields, pts[i / recSize fields], List.getElem?_eq_getElem hk, rfl⟩, Nat.div_mul_le_self _ _, ?_⟩
    exact Nat.lt_div_mul_add hpos
  · intro w hw hc
    obtain ⟨k, p, h1, rfl⟩ := (hmem w).1 hw
    dsimp only at hc
    have : (k + 1) * recSize fields ≤ pts.length * recSize fields := Nat.mul_le_mul_right _ (hkn k p h1)
    have e : sessionSize fields pts.length = pts.length * recSize fields := by unfold sessionSize recSize; ring
    rw [Nat.succ_mul] at this
    omega

/-- `1.0` and `1.0e-100`. -/
def one : Val := .finite false (fun i => if i = 0 then 1 else 0) false 0

def tiny : Val := .finite false (fun i => if i = 0 then 1 else 0) true 100

example : String.ofList one.text = " 1.000000000000000e+00" := by decide

example : String.ofList tiny.text = " 1.000000000000000e-100" := by decide

/-- Two chares with a point each, in reverse order. -/
example : ∃ (O : Own) (pts : List ℕ) (vals : ℕ → ℕ → List Val), (∀ p ∈ pts, O.chare p < O.tot) ∧ pts.length = 2 ∧
    ∀ p ∈ pts, (vals (O.chare p) (O.loc p)).length = 2 ∧ ∀ v ∈ vals (O.chare p) (O.loc p), v.Short :=
  ⟨⟨2, fun p => p, fun _ => 0⟩, [1, 0], fun _ _ => [one, one], by simp, rfl, fun _ _ => ⟨rfl, by simp [one, Val.Short]⟩⟩

/-- **C112** (violation): the newline of a line with an exponent of three digits is lost. -/
theorem C112_exponent_violation : ∃ (O : Own) (pts : List ℕ) (vals : ℕ → ℕ → List Val), (∀ p ∈ pts, O.chare p < O.tot) ∧
    (∀ p ∈ pts, (vals (O.chare p) (O.loc p)).length = 2) ∧ ∀ junk file, ∀ i < sessionSize 2 pts.length,
      (((List.range O.tot).flatMap (writes O (recSize 2) pts vals junk)).foldl (put (recSize 2)) file) i ≠ some '\n' := by
  refine ⟨⟨1, fun _ => 0, fun _ => 0⟩, [0], fun _ _ => [one, tiny], by simp, by simp, fun junk file i hi => ?_⟩
  have hi' : i < 46 := hi
  have e : ((List.range 1).flatMap (writes ⟨1, fun _ => 0, fun _ => 0⟩ (recSize 2) [0] (fun _ _ => [one, tiny]) junk)) =
      [⟨0, buffer 46 (line [one, tiny]) (junk 0)⟩] := by
    simp [writes, fill, recSize]
  rw [e, List.foldl_cons, List.foldl_nil, put, if_pos ⟨Nat.zero_le _, by simpa [recSize] using hi'⟩]
  have hlen : (line [one, tiny]).length = 47 := by decide
  show some (buffer 46 (line [one, tiny]) (junk 0) (i - 0)) ≠ _
  rw [Nat.sub_zero, buffer, hlen, if_pos (by simpa using hi')]
  have hall : ∀ j : Fin 46, (line [one, tiny])[j.val]?.getD ' ' ≠ '\n' := by decide
  intro hc
  exact hall ⟨i, hi'⟩ (by simpa using hc)

/-- **C112** (violation): a line with a NaN leaves in the file what the memory happened to hold. -/
theorem C112_nan_violation : ∃ (O : Own) (pts : List ℕ) (vals : ℕ → ℕ → List Val), (∀ p ∈ pts, O.chare p < O.tot) ∧
    (∀ p ∈ pts, (vals (O.chare p) (O.loc p)).length = 2) ∧ ∀ c : Char, ∃ junk, ∀ file,
      (((List.range O.tot).flatMap (writes O (recSize 2) pts vals junk)).foldl (put (recSize 2)) file) 45 = some c := by
  refine ⟨⟨1, fun _ => 0, fun _ => 0⟩, [0], fun _ _ => [one, .nan], by simp, by simp, fun c => ⟨fun _ _ => c, fun file => ?_⟩⟩
  have e : ((List.range 1).flatMap (writes ⟨1, fun _ => 0, fun _ => 0⟩ (recSize 2) [0] (fun _ _ => [one, .nan]) fun _ _ => c)) =
      [⟨0, buffer 46 (line [one, .nan]) fun _ => c⟩] := by
    simp [writes, fill, recSize]
  rw [e, List.foldl_cons, List.foldl_nil, put, if_pos (by simp [recSize])]
  have hlen : (line [one, .nan]).length = 28 := by decide
  simp [buffer, hlen]

/-- **C112** (the point): the local index from which a chare takes the quantities is that of the local indices from which it takes the coordinates, and
these are the point of the list. -/
theorem C112_point (P : Params) (hP : P.Ok) (ch i : Fin 3 → Nat) (hch : P.IsChare ch) (hi : P.IsGlobal i)
    (hown : P.chareOf (idx3 (i 0) (i 1) (i 2) ((P.d 0).tot P.G) ((P.d 1).tot P.G)) = some (P.chIdx ch)) :
    ∃ l : Fin 3 → Nat, P.IsLocal l ∧ (∀ t, (l t : Int) = globalToLocal (ch t) (i t) (P.d t).chNxx) ∧
      P.localOf (idx3 (i 0) (i 1) (i 2) ((P.d 0).tot P.G) ((P.d 1).tot P.G)) = some (P.locIdx l) ∧
      ∀ t, localToGlobal (ch t) (l t) (P.d t).chNxx = i t := by
  have hg : idx3 (i 0) (i 1) (i 2) ((P.d 0).tot P.G) ((P.d 1).tot P.G) < P.ntot := idx3_lt (hi 0) (hi 1) (hi 2)
  have := (C44_owner P hP).symm.subset (List.mem_range.2 hg)
  obtain ⟨w, hw, hwg⟩ := List.mem_map.1 this
  obtain ⟨h1, h2⟩ := arrays_eq hP hw
  rw [hwg] at h1 h2
  rw [h1, Option.some.injEq] at hown
  obtain ⟨ch', l, hch', hl, rfl⟩ := mem_writes.1 hw
  simp only at hown hwg h2
  unfold Params.chIdx at hown
  obtain ⟨c0, c1, c2⟩ := idx3_inj (hch' 0) (hch' 1) (hch 0) (hch 1) hown
  have hcc : ch' = ch := by funext t; match t with
    | 0 => exact c0
    | 1 => exact c1
    | 2 => exact c2
  subst hcc
  have hloc : P.IsLocal l := fun i => Dir.local_lt (hl i)
  unfold Params.globIdx at hwg
  have gl : ∀ t, localToGlobal (ch' t) (l t) (P.d t).chNxx < (P.d t).tot P.G := fun t => Dir.glob_lt (hP t).2.2 (hch' t) (hloc t)
  obtain ⟨g0, g1, g2⟩ := idx3_inj (gl 0) (gl 1) (hi 0) (hi 1) hwg
  have hgt : ∀ t, localToGlobal (ch' t) (l t) (P.d t).chNxx = i t := fun t => match t with
    | 0 => g0
    | 1 => g1
    | 2 => g2
  refine ⟨l, hloc, fun t => ?_, h2, hgt⟩
  rw [← hgt t, C44_maps]

end Verif.SuperB.Records
