import Verif.SuperB.Halo
import Verif.SuperB.CharesProps
import Mathlib.Data.List.Induction

/-!
# C57: the ghost-zone exchange fills ghost zones with the owner's values
-/
namespace Verif.SuperB

/-! ## Specification -/

/-- Global point of a local point of a chare. -/
def Params.glob (P : Params) (ch l : Fin 3 → Nat) : Fin 3 → Nat := fun i => localToGlobal (ch i) (l i) (P.d i).chNxx

/-- The chare owns the local point (in direction `i`). -/
def Params.Owns (P : Params) (ch l : Fin 3 → Nat) (i : Fin 3) : Prop := l i ∈ (P.d i).locals P.G (ch i)

/-- Value of grid function `g` at local point `l`. -/
def Params.at {V : Type} (P : Params) (m : Mem V) (g : Nat) (l : Fin 3 → Nat) : V := m (P.box.idx4 g l)

/-! ## Memory -/

variable {V : Type}

theorem writeAll_of_mem {ws : List (Nat × V)} {k : Nat} {v : V} (h : (k, v) ∈ ws)
    (hu : ∀ v', (k, v') ∈ ws → v' = v) (m : Mem V) : writeAll ws m k = v := by
  unfold writeAll
  induction ws using List.reverseRecOn with
  | nil => cases h
  | append_singleton l w ih =>
    rw [List.foldl_append, List.foldl_cons, List.foldl_nil]
    by_cases hk : k = w.1
    · rw [if_pos hk]
      apply hu
      rw [hk]
      simp
    · rw [if_neg hk]
      rcases List.mem_append.1 h with h | h
      · exact ih h fun v' hv' => hu v' (by simp [hv'])
      · rw [List.mem_singleton] at h
        rw [← h] at hk
        exact absurd rfl hk

theorem writeAll_not_mem {ws : List (Nat × V)} {k : Nat} (h : ∀ v, (k, v) ∉ ws) (m : Mem V) :
    writeAll ws m k = m k := by
  unfold writeAll
  induction ws generalizing m with
  | nil => rfl
  | cons w l ih =>
    rw [List.foldl_cons, ih (fun v hv => h v (by simp [hv]))]
    rw [if_neg]
    intro e
    exact h w.2 (by rw [e]; simp)

theorem mem_faces {α : Type} {B : Box} {dir : Fin 3} {num : Nat} {f : Nat → Nat → Nat → Nat → α} {x : α} :
    x ∈ B.faces dir num f ↔ ∃ g inner a b, g < num ∧ inner < B.G ∧ a < B.N (faceA dir) ∧ b < B.N (faceB dir) ∧
      x = f g inner a b := by
  unfold Box.faces
  simp only [List.mem_flatMap, List.mem_map, List.mem_range]
  constructor
  · rintro ⟨g, hg, i, hi, b, hb, a, ha, rfl⟩
    exact ⟨g, i, a, b, hg, hi, ha, hb, rfl⟩
  · rintro ⟨g, i, a, b, hg, hi, ha, hb, rfl⟩
    exact ⟨g, hg, i, hi, b, hb, a, ha, rfl⟩

theorem idxFace_inj {B : Box} {dir : Fin 3} {g i a b g' i' a' b' : Nat} (hi : i < B.G) (ha : a < B.N (faceA dir))
    (hb : b < B.N (faceB dir)) (hi' : i' < B.G) (ha' : a' < B.N (faceA dir)) (hb' : b' < B.N (faceB dir))
    (h : B.idxFace dir g i a b = B.idxFace dir g' i' a' b') : g = g' ∧ i = i' ∧ a = a' ∧ b = b' := by
  unfold Box.idxFace at h
  obtain ⟨h1, h2⟩ := add_mul_inj ha ha' h
  obtain ⟨h3, h4⟩ := add_mul_inj hb hb' h2
  obtain ⟨h5, h6⟩ := add_mul_inj hi hi' h4
  exact ⟨h6, h5, h1, h3⟩

theorem idx4_inj {B : Box} {g g' : Nat} {l l' : Fin 3 → Nat} (hl : ∀ i, l i < B.N i) (hl' : ∀ i, l' i < B.N i)
    (h : B.idx4 g l = B.idx4 g' l') : g = g' ∧ l = l' := by
  unfold Box.idx4 at h
  obtain ⟨h1, h2⟩ := add_mul_inj (hl 0) (hl' 0) h
  obtain ⟨h3, h4⟩ := add_mul_inj (hl 1) (hl' 1) h2
  obtain ⟨h5, h6⟩ := add_mul_inj (hl 2) (hl' 2) h4
  refine ⟨h6, ?_⟩
  funext i
  match i with
  | 0 => exact h1
  | 1 => exact h3
  | 2 => exact h5

theorem idxFace_lt {B : Box} {dir : Fin 3} {num g i a b : Nat} (hg : g < num) (hi : i < B.G)
    (ha : a < B.N (faceA dir)) (hb : b < B.N (faceB dir)) : B.idxFace dir g i a b < B.len dir num := by
  unfold Box.idxFace Box.len
  have step : ∀ {x N y M : Nat}, x < N → y < M → x + N * y < N * M := by
    intro x N y M hx hy
    calc x + N * y < N + N * y := by omega
      _ = N * (y + 1) := by ring
      _ ≤ N * M := Nat.mul_le_mul_left _ hy
  have := step ha (step hb (step hi hg))
  calc _ < _ := this
    _ = _ := by ring

/-- What is read from a message. -/
theorem pack_getD (B : Box) (junk : V) (dir : Fin 3) (s : Side) (sync : Sync) (buf gfs : Mem V)
    {g inner a b : Nat} (hg : g < sync.length) (hi : inner < B.G) (ha : a < B.N (faceA dir))
    (hb : b < B.N (faceB dir)) :
    (B.pack dir s sync buf gfs).getD (B.idxFace dir g inner a b) junk =
      gfs (B.idx4 (sync.getD g 0) (point dir (B.sendPlane dir s inner) a b)) := by
  unfold Box.pack
  have hlt := idxFace_lt (num := sync.length) hg hi ha hb
  rw [List.getD_eq_getElem?_getD, List.getElem?_map, List.getElem?_range hlt]
  simp only [Option.map_some, Option.getD_some]
  apply writeAll_of_mem
  · exact mem_faces.2 ⟨g, inner, a, b, hg, hi, ha, hb, rfl⟩
  · intro v' hv'
    obtain ⟨g', i', a', b', hg', hi', ha', hb', e⟩ := mem_faces.1 hv'
    obtain ⟨e1, e2⟩ := Prod.mk.inj e
    obtain ⟨rfl, rfl, rfl, rfl⟩ := idxFace_inj hi ha hb hi' ha' hb' e1
    exact e2

theorem point_dir (dir : Fin 3) (i a b : Nat) : point dir i a b dir = i := by
  match dir with
  | 0 => rfl
  | 1 => rfl
  | 2 => rfl

theorem point_faceA (dir : Fin 3) (i a b : Nat) : point dir i a b (faceA dir) = a := by
  match dir with
  | 0 => rfl
  | 1 => rfl
  | 2 => rfl

theorem point_faceB (dir : Fin 3) (i a b : Nat) : point dir i a b (faceB dir) = b := by
  match dir with
  | 0 => rfl
  | 1 => rfl
  | 2 => rfl

theorem fin3_cases (dir : Fin 3) {p : Fin 3 → Prop} (h0 : p dir) (hA : p (faceA dir)) (hB : p (faceB dir)) :
    ∀ i, p i := by
  intro i
  match dir, i with
  | 0, 0 => exact h0
  | 0, 1 => exact hA
  | 0, 2 => exact hB
  | 1, 0 => exact hA
  | 1, 1 => exact h0
  | 1, 2 => exact hB
  | 2, 0 => exact hA
  | 2, 1 => exact hB
  | 2, 2 => exact h0

theorem face_ne (dir : Fin 3) : faceA dir ≠ dir ∧ faceB dir ≠ dir := by
  match dir with
  | 0 => decide
  | 1 => decide
  | 2 => decide

theorem point_eq (dir : Fin 3) (l : Fin 3 → Nat) : point dir (l dir) (l (faceA dir)) (l (faceB dir)) = l := by
  funext i
  refine fin3_cases dir (p := fun i => point dir (l dir) (l (faceA dir)) (l (faceB dir)) i = l i) ?_ ?_ ?_ i
  · exact point_dir ..
  · exact point_faceA ..
  · exact point_faceB ..

/-- `l` with the index along `dir` replaced. -/
def setDir (l : Fin 3 → Nat) (dir : Fin 3) (x : Nat) : Fin 3 → Nat := fun i => if i = dir then x else l i

theorem point_set (dir : Fin 3) (l : Fin 3 → Nat) (x : Nat) :
    point dir x (l (faceA dir)) (l (faceB dir)) = setDir l dir x := by
  have := point_eq dir (setDir l dir x)
  simpa [setDir, (face_ne dir).1, (face_ne dir).2] using this

/-- The planes filled on a side. -/
def Box.InGhost (B : Box) (dir : Fin 3) (x : Nat) : Side → Prop
  | .low => x < B.G
  | .high => B.n dir + B.G ≤ x ∧ x < B.N dir

/-- Index along `dir` of the sender's plane for the receiver's plane `x`. -/
def Box.source (B : Box) (dir : Fin 3) (x : Nat) : Side → Nat
  | .low => x + B.n dir
  | .high => x - B.n dir

theorem recvPlane_lt {B : Box} {dir : Fin 3} {s : Side} {inner : Nat} (h : inner < B.G) :
    B.recvPlane dir s inner < B.N dir ∧ B.InGhost dir (B.recvPlane dir s inner) s := by
  cases s <;> simp only [Box.recvPlane, Box.InGhost, Box.N] <;> omega

theorem recvPlane_inj {B : Box} {dir : Fin 3} {s : Side} {i i' : Nat} (h : i < B.G) (h' : i' < B.G)
    (e : B.recvPlane dir s i = B.recvPlane dir s i') : i = i' := by
  cases s <;> simp only [Box.recvPlane] at e <;> omega

theorem recvPlane_surj {B : Box} {dir : Fin 3} {s : Side} {x : Nat} (h : B.InGhost dir x s) :
    ∃ inner, inner < B.G ∧ B.recvPlane dir s inner = x ∧ B.sendPlane dir s.flip inner = B.source dir x s := by
  cases s
  · exact ⟨x, h, rfl, by simp only [Box.sendPlane, Box.source, Side.flip]; omega⟩
  · obtain ⟨h1, h2⟩ := h
    unfold Box.N at h2
    refine ⟨B.n dir + 2 * B.G - 1 - x, by omega, ?_, ?_⟩
    · simp only [Box.recvPlane]; omega
    · simp only [Box.sendPlane, Box.source, Side.flip]; omega

/-- Effect of receiving a message: ghost planes of synchronized grid functions get the sender's values, all
else is unchanged. -/
theorem unpack_spec (B : Box) (junk : V) (dir : Fin 3) (s : Side) (sync : Sync) (hs : sync.Nodup)
    (buf src gfs : Mem V) {g : Nat} {l : Fin 3 → Nat} (hl : ∀ i, l i < B.N i) :
    (g ∈ sync ∧ B.InGhost dir (l dir) s →
      B.unpack junk dir s sync (B.pack dir s.flip sync buf src) gfs (B.idx4 g l) =
        src (B.idx4 g (setDir l dir (B.source dir (l dir) s)))) ∧
    (¬ (g ∈ sync ∧ B.InGhost dir (l dir) s) →
      B.unpack junk dir s sync (B.pack dir s.flip sync buf src) gfs (B.idx4 g l) = gfs (B.idx4 g l)) := by
  have hpt : ∀ {inner a b : Nat}, inner < B.G → a < B.N (faceA dir) → b < B.N (faceB dir) → ∀ i,
      point dir (B.recvPlane dir s inner) a b i < B.N i := by
    intro inner a b hi ha hb
    refine fin3_cases dir ?_ ?_ ?_
    · rw [point_dir]; exact (recvPlane_lt hi).1
    · rw [point_faceA]; exact ha
    · rw [point_faceB]; exact hb
  constructor
  · rintro ⟨hg, hgh⟩
    obtain ⟨inner, hi, hr, hsp⟩ := recvPlane_surj hgh
    obtain ⟨k, hk, hkg⟩ := List.mem_iff_getElem.1 hg
    have hkg' : sync.getD k 0 = g := by
      rw [List.getD_eq_getElem?_getD, List.getElem?_eq_getElem hk, hkg]; rfl
    unfold Box.unpack
    apply writeAll_of_mem
    · refine mem_faces.2 ⟨k, inner, l (faceA dir), l (faceB dir), hk, hi, hl _, hl _, ?_⟩
      rw [hkg', hr, point_eq, pack_getD B junk dir _ sync buf src hk hi (hl _) (hl _), hkg', hsp, point_set]
    · intro v' hv'
      obtain ⟨k', i', a', b', hk', hi', ha', hb', e⟩ := mem_faces.1 hv'
      obtain ⟨e1, e2⟩ := Prod.mk.inj e
      obtain ⟨eg, el⟩ := idx4_inj hl (hpt hi' ha' hb') e1
      have ea : a' = l (faceA dir) := by rw [el, point_faceA]
      have eb : b' = l (faceB dir) := by rw [el, point_faceB]
      have ei : i' = inner := by
        apply recvPlane_inj (dir := dir) (s := s) hi' hi
        rw [hr, el, point_dir]
      rw [e2, pack_getD B junk dir _ sync buf src hk' hi' ha' hb', ← eg, ea, eb, ei, hsp, point_set]
  · intro hno
    unfold Box.unpack
    apply writeAll_not_mem
    intro v hv
    obtain ⟨k', i', a', b', hk', hi', ha', hb', e⟩ := mem_faces.1 hv
    obtain ⟨e1, -⟩ := Prod.mk.inj e
    obtain ⟨eg, el⟩ := idx4_inj hl (hpt hi' ha' hb') e1
    apply hno
    constructor
    · rw [eg, List.getD_eq_getElem?_getD, List.getElem?_eq_getElem hk']
      exact List.getElem_mem hk'
    · rw [el, point_dir]
      exact (recvPlane_lt hi').2

/-! ## One exchange -/

theorem nbr_low (P : Params) (ch : Fin 3 → Nat) (dir : Fin 3) : P.nbr ch dir .low =
    if 0 < ch dir then some (fun i => if i = dir then ch i - 1 else ch i) else none := rfl

theorem nbr_high (P : Params) (ch : Fin 3 → Nat) (dir : Fin 3) : P.nbr ch dir .high =
    if ch dir + 1 < (P.d dir).Nchare then some (fun i => if i = dir then ch i + 1 else ch i) else none := rfl

theorem nbr_isChare {P : Params} {ch c : Fin 3 → Nat} {dir : Fin 3} {s : Side} (hch : P.IsChare ch)
    (h : P.nbr ch dir s = some c) : P.IsChare c := by
  cases s
  · rw [nbr_low] at h
    split at h
    · cases h
      intro i
      have := hch i
      simp only
      split <;> omega
    · cases h
  · rw [nbr_high] at h
    split at h
    · cases h
      intro i
      have := hch i
      simp only
      split
      · rename_i h' e; rw [e]; exact h'
      · exact this
    · cases h

/-- Effect of processing one message. -/
theorem receive_spec (P : Params) (junk : V) (buf : Mem V) (dir : Fin 3) (sync : Sync) (hs : sync.Nodup)
    (s : Side) (D : (Fin 3 → Nat) → Mem V) (ch : Fin 3 → Nat) (m : Mem V) {g : Nat} {l : Fin 3 → Nat}
    (hl : P.IsLocal l) :
    (∀ c, P.nbr ch dir s = some c → g ∈ sync → P.box.InGhost dir (l dir) s →
      P.at (P.receive junk buf dir sync s D ch m) g l =
        P.at (D c) g (setDir l dir (P.box.source dir (l dir) s))) ∧
    (P.nbr ch dir s = none ∨ g ∉ sync ∨ ¬ P.box.InGhost dir (l dir) s →
      P.at (P.receive junk buf dir sync s D ch m) g l = P.at m g l) := by
  have hlb : ∀ i, l i < P.box.N i := hl
  unfold Params.at Params.receive
  rcases hn : P.nbr ch dir s with _ | c
  · constructor
    · intro c h; cases h
    · intro _; rfl
  · have key := unpack_spec P.box junk dir s sync hs buf (D c) m (g := g) hlb
    cases s
    · constructor
      · intro c' e hg hh
        cases e
        exact key.1 ⟨hg, hh⟩
      · rintro (h | h | h)
        · cases h
        · exact key.2 fun h' => h h'.1
        · exact key.2 fun h' => h h'.2
    · constructor
      · intro c' e hg hh
        cases e
        exact key.1 ⟨hg, hh⟩
      · rintro (h | h | h)
        · cases h
        · exact key.2 fun h' => h h'.1
        · exact key.2 fun h' => h h'.2

/-- Effect of one exchange on a chare. -/
theorem exchange_spec (P : Params) (junk : V) (buf : Mem V) (dir : Fin 3) (sync : Sync) (hs : sync.Nodup)
    (D : (Fin 3 → Nat) → Mem V) (ch : Fin 3 → Nat) {g : Nat} {l : Fin 3 → Nat} (hl : P.IsLocal l) :
    (g ∈ sync → ∀ c, P.nbr ch dir .low = some c → l dir < P.G →
      P.at (P.exchange junk buf dir sync D ch) g l = P.at (D c) g (setDir l dir (l dir + (P.d dir).chNxx))) ∧
    (g ∈ sync → ∀ c, P.nbr ch dir .high = some c → ¬ l dir < P.G → (P.d dir).chNxx + P.G ≤ l dir →
      P.at (P.exchange junk buf dir sync D ch) g l = P.at (D c) g (setDir l dir (l dir - (P.d dir).chNxx))) ∧
    (g ∉ sync ∨ ((l dir < P.G → P.nbr ch dir .low = none) ∧
        ((P.d dir).chNxx + P.G ≤ l dir → P.nbr ch dir .high = none)) →
      P.at (P.exchange junk buf dir sync D ch) g l = P.at (D ch) g l) := by
  have L := receive_spec P junk buf dir sync hs .low D ch (P.receive junk buf dir sync .high D ch (D ch)) (g := g) hl
  have H := receive_spec P junk buf dir sync hs .high D ch (D ch) (g := g) hl
  unfold Params.exchange
  refine ⟨fun hg c hn hL => L.1 c hn hg hL, fun hg c hn hL hH => ?_, ?_⟩
  · rw [L.2 (Or.inr (Or.inr hL))]
    exact H.1 c hn hg ⟨hH, hl dir⟩
  · rintro (hg | ⟨h1, h2⟩)
    · rw [L.2 (Or.inr (Or.inl hg)), H.2 (Or.inr (Or.inl hg))]
    · rw [L.2, H.2]
      · by_cases hH : (P.d dir).chNxx + P.G ≤ l dir
        · exact Or.inl (h2 hH)
        · exact Or.inr (Or.inr fun h => hH h.1)
      · by_cases hL : l dir < P.G
        · exact Or.inl (h1 hL)
        · exact Or.inr (Or.inr hL)

/-- At an owned point there is no neighbour to receive from. -/
theorem owned_no_nbr {P : Params} {ch l : Fin 3 → Nat} {dir : Fin 3} (hch : P.IsChare ch)
    (ho : l dir ∈ (P.d dir).locals P.G (ch dir)) : (l dir < P.G → P.nbr ch dir .low = none) ∧
        ((P.d dir).chNxx + P.G ≤ l dir → P.nbr ch dir .high = none) := by
  have hm := Dir.mem_locals.1 ho
  have hN := hch dir
  constructor
  · intro hL
    rw [nbr_low, if_neg]
    intro hpos
    have := hm.1
    unfold Dir.startLocal at this
    rw [if_neg (by omega)] at this
    omega
  · intro hL
    rw [nbr_high, if_neg]
    intro hpos
    have := hm.2
    unfold Dir.endLocal at this
    rw [if_neg (by omega)] at this
    omega

/-- What the chares know before the exchange along `dir`: each chare has the value of a global field `F` at
its local points that satisfy `K`. -/
def Params.Knows {V : Type} (P : Params) (F : Nat → (Fin 3 → Nat) → V) (sync : Sync)
    (D : (Fin 3 → Nat) → Mem V) (K : (Fin 3 → Nat) → (Fin 3 → Nat) → Prop) : Prop :=
  ∀ ch, P.IsChare ch → ∀ l, P.IsLocal l → K ch l → ∀ g ∈ sync, P.at (D ch) g l = F g (P.glob ch l)

/-- An exchange along `dir` makes the values known whatever the index along `dir`. -/
theorem exchange_knows {P : Params} (hP : P.Ok) (junk : V) (buf : Mem V) (dir : Fin 3) (sync : Sync)
    (hs : sync.Nodup) (F : Nat → (Fin 3 → Nat) → V) (D : (Fin 3 → Nat) → Mem V)
    (K : (Fin 3 → Nat) → (Fin 3 → Nat) → Prop)
    (hK : ∀ ch l ch' l', (∀ i, i ≠ dir → ch i = ch' i ∧ l i = l' i) → K ch l → K ch' l')
    (h : P.Knows F sync D fun ch l => K ch l ∧ P.Owns ch l dir) :
    P.Knows F sync (P.exchange junk buf dir sync D) K := by
  intro ch hch l hl hk g hg
  have X := exchange_spec P junk buf dir sync hs D ch (g := g) hl
  -- the value taken from a neighbour
  have take : ∀ (c : Fin 3 → Nat) (x : Nat), P.IsChare c → (∀ i, i ≠ dir → c i = ch i) →
      x ∈ (P.d dir).locals P.G (c dir) →
      localToGlobal (c dir) x (P.d dir).chNxx = localToGlobal (ch dir) (l dir) (P.d dir).chNxx →
      P.at (D c) g (setDir l dir x) = F g (P.glob ch l) := by
    intro c x hc hci hx hglob
    have hloc : P.IsLocal (setDir l dir x) := by
      intro i
      unfold setDir
      split
      · rename_i e; rw [e]; exact Dir.local_lt hx
      · exact hl i
    rw [h c hc _ hloc ⟨hK ch l c _ (fun i hi => ⟨(hci i hi).symm, by simp [setDir, hi]⟩) hk,
      by simpa [Params.Owns, setDir] using hx⟩ g hg]
    congr 1
    funext i
    unfold Params.glob
    by_cases hi : i = dir
    · rw [hi]
      simpa [setDir] using hglob
    · rw [hci i hi]
      simp [setDir, hi]
  have own : P.Owns ch l dir → P.at (D ch) g l = F g (P.glob ch l) := fun ho => h ch hch l hl ⟨hk, ho⟩ g hg
  have hown := Dir.mem_locals (G := P.G) (d := P.d dir) (ch := ch dir) (l := l dir)
  have hnbr := C44_neighbour P.G (P.d dir) (hP dir).2.2 (ch dir) (l dir) (hch dir) (hl dir)
  by_cases hmem : l dir ∈ (P.d dir).locals P.G (ch dir)
  · rw [X.2.2 (Or.inr (owned_no_nbr hch hmem))]
    exact own hmem
  · rcases hnbr hmem with ⟨hlt, hpos, l', hl', hg'⟩ | ⟨hge, hN, l', hl', hg'⟩
    · have hn : P.nbr ch dir .low = some (fun i => if i = dir then ch i - 1 else ch i) := by
        rw [nbr_low, if_pos hpos]
      rw [X.1 hg _ hn hlt]
      have e : l' = l dir + (P.d dir).chNxx := by
        unfold localToGlobal at hg'
        obtain ⟨c, hc⟩ := Nat.exists_eq_succ_of_ne_zero (Nat.pos_iff_ne_zero.1 hpos)
        rw [hc] at hg'
        simp only [Nat.succ_eq_add_one, Nat.add_sub_cancel, Nat.succ_mul] at hg'
        omega
      subst e
      refine take _ _ (nbr_isChare hch hn) (fun i hi => by simp [hi]) ?_ ?_
      · simpa using hl'
      · simpa using hg'
    · have hnl : ¬ l dir < P.G := by
        omega
      have hn : P.nbr ch dir .high = some (fun i => if i = dir then ch i + 1 else ch i) := by
        rw [nbr_high, if_pos hN]
      rw [X.2.1 hg _ hn hnl hge]
      have e : l' = l dir - (P.d dir).chNxx := by
        unfold localToGlobal at hg'
        rw [Nat.succ_mul] at hg'
        omega
      subst e
      refine take _ _ (nbr_isChare hch hn) (fun i hi => by simp [hi]) ?_ ?_
      · simpa using hl'
      · simpa using hg'

/-- The three exchanges in the order of the program: x, y, z (timestepping_chare.py:1327-1357, 1545-1577). -/
def Params.exchange3 (P : Params) (junk : V) (buf : Mem V) (sync : Sync) (D : (Fin 3 → Nat) → Mem V) :
    (Fin 3 → Nat) → Mem V :=
  P.exchange junk buf 2 sync (P.exchange junk buf 1 sync (P.exchange junk buf 0 sync D))

/-- **C57**: let `F` be a field on the global grid, and let each chare hold its values at the points the chare
owns.  After the exchanges along x, y and z every chare holds the values of `F` at all its local points, faces,
edges and corners of the ghost zones included, for each synchronized grid function. -/
theorem C57_exchange (P : Params) (hP : P.Ok) (junk : V) (buf : Mem V) (sync : Sync) (hs : sync.Nodup)
    (F : Nat → (Fin 3 → Nat) → V) (D : (Fin 3 → Nat) → Mem V)
    (h : ∀ ch, P.IsChare ch → ∀ l, P.IsLocal l → (∀ i, l i ∈ (P.d i).locals P.G (ch i)) →
      ∀ g ∈ sync, P.at (D ch) g l = F g (P.glob ch l)) :
    ∀ ch, P.IsChare ch → ∀ l, P.IsLocal l → ∀ g ∈ sync,
      P.at (P.exchange3 junk buf sync D ch) g l = F g (P.glob ch l) := by
  have k0 : P.Knows F sync D fun ch l => (P.Owns ch l 1 ∧ P.Owns ch l 2) ∧ P.Owns ch l 0 := by
    intro ch hch l hl ho g hg
    refine h ch hch l hl (fun i => ?_) g hg
    match i with
    | 0 => exact ho.2
    | 1 => exact ho.1.1
    | 2 => exact ho.1.2
  have k1 := exchange_knows hP junk buf 0 sync hs F D (fun ch l => P.Owns ch l 1 ∧ P.Owns ch l 2)
    (by
      rintro ch l ch' l' e ⟨h1, h2⟩
      unfold Params.Owns at *
      rw [(e 1 (by decide)).1, (e 1 (by decide)).2] at h1
      rw [(e 2 (by decide)).1, (e 2 (by decide)).2] at h2
      exact ⟨h1, h2⟩) k0
  have k2 := exchange_knows hP junk buf 1 sync hs F _ (fun ch l => P.Owns ch l 2)
    (by
      rintro ch l ch' l' e h2
      unfold Params.Owns at *
      rwa [(e 2 (by decide)).1, (e 2 (by decide)).2] at h2)
    (fun ch hch l hl ho g hg => k1 ch hch l hl ⟨ho.2, ho.1⟩ g hg)
  have k3 := exchange_knows hP junk buf 2 sync hs F _ (fun _ _ => True) (fun _ _ _ _ _ _ => trivial)
    (fun ch hch l hl ho g hg => k2 ch hch l hl ho.2 g hg)
  exact fun ch hch l hl g hg => k3 ch hch l hl trivial g hg

/-- **C57** (frame): grid functions that are not synchronized keep their values everywhere, and every chare
keeps the values at the points it owns. -/
theorem C57_frame (P : Params) (hP : P.Ok) (junk : V) (buf : Mem V) (sync : Sync) (hs : sync.Nodup)
    (D : (Fin 3 → Nat) → Mem V) (ch : Fin 3 → Nat) (hch : P.IsChare ch) (l : Fin 3 → Nat) (hl : P.IsLocal l)
    (g : Nat) (hg : g ∉ sync ∨ ∀ i, l i ∈ (P.d i).locals P.G (ch i)) :
    P.at (P.exchange3 junk buf sync D ch) g l = P.at (D ch) g l := by
  have one : ∀ (dir : Fin 3) (D : (Fin 3 → Nat) → Mem V),
      P.at (P.exchange junk buf dir sync D ch) g l = P.at (D ch) g l := by
    intro dir D
    apply (exchange_spec P junk buf dir sync hs D ch hl).2.2
    rcases hg with hg | ho
    · exact Or.inl hg
    · exact Or.inr (owned_no_nbr hch (ho dir))
  unfold Params.exchange3
  rw [one, one, one]

/-- The hypothesis of `C57_exchange` can be met: data taken from a global field, and nothing else known. -/
example : ∃ D : (Fin 3 → Nat) → Mem Nat, ∀ ch, exP.IsChare ch → ∀ l, exP.IsLocal l →
    (∀ i, l i ∈ (exP.d i).locals exP.G (ch i)) → ∀ g ∈ [4, 1],
      exP.at (D ch) g l = (fun g p => 1000 * g + 100 * p 0 + 10 * p 1 + p 2) g (exP.glob ch l) := by
  classical
  refine ⟨fun ch k => if h : ∃ g l, exP.IsLocal l ∧ exP.box.idx4 g l = k then
    (fun g p => 1000 * g + 100 * p 0 + 10 * p 1 + p 2) h.choose (exP.glob ch h.choose_spec.choose) else 0, ?_⟩
  intro ch _ l hl _ g _
  unfold Params.at
  beta_reduce
  have hex : ∃ g' l', exP.IsLocal l' ∧ exP.box.idx4 g' l' = exP.box.idx4 g l := ⟨g, l, hl, rfl⟩
  rw [dif_pos hex]
  have hsp := hex.choose_spec.choose_spec
  obtain ⟨e1, e2⟩ := idx4_inj (B := exP.box) hsp.1 hl hsp.2
  have e : ∀ (g' : Nat) (l' : Fin 3 → Nat), g' = g → l' = l →
      (fun (g : Nat) (p : Fin 3 → Nat) => 1000 * g + 100 * p 0 + 10 * p 1 + p 2) g' (exP.glob ch l') =
      (fun (g : Nat) (p : Fin 3 → Nat) => 1000 * g + 100 * p 0 + 10 * p 1 + p 2) g (exP.glob ch l) := by
    rintro g' l' rfl rfl
    rfl
  exact e _ _ e1 e2

end Verif.SuperB
