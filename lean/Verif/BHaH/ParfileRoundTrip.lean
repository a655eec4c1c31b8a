import Verif.BHaH.ParfileGenProps

/-!
# C40: the whole file
-/
namespace Verif.BHaH.Parfile
open Verif.Py Verif.Helpers

/-! ## One line of the file -/

section
variable {F : Type} {py : PyNum F} {strtod : Str → Option (F × Str × Bool)}

theorem cStr_comment {pre : Str} (rest : Str) (h0 : '\x00' ∉ pre) (h1 : '#' ∉ pre) :
    (cStr (pre ++ '#' :: rest)).takeWhile (· ≠ '#') = pre := by
  have e : cStr (pre ++ '#' :: rest) = pre ++ '#' :: cStr rest := by
    unfold cStr
    rw [List.takeWhile_append_of_pos, List.takeWhile_cons_of_pos (by decide)]
    intro x hx
    simp only [ne_eq, decide_not, Bool.not_eq_eq_eq_not, Bool.not_true, decide_eq_false_iff_not]
    exact fun e => h0 (e ▸ hx)
  rw [e]
  exact (takeWhile_append_stop '#' pre _ h1).1

theorem safeCopy_short {r : Str} (h : r.length ≤ 127) : safeCopy paramSize r paramSize = .ok r := by
  rw [safeCopy, if_neg (by decide), if_neg (by simp only [paramSize]; omega), write, if_pos (Nat.le_refl _)]
  rfl

/-- What a line sets. -/
def PState.setTo (st : PState F) (name : Str) (cv : CVal F) : PState F :=
  { st.assign name cv with set := name :: st.set }

theorem parseLine_good {name : Str} {p : CodeParam F} {k : PKind} {cv : CVal F} (g : Good py strtod name p k cv)
    (numParams : Nat) (table : List Desc) (hf : findDesc table name = some ⟨name, k⟩) (hn : table.length ≤ numParams)
    (m : Nat) (rest : Str) (st : PState F) (hset : name ∉ st.set) :
    parseLine strtod numParams table
      (cStr (nameText name k ++ (c% " = ") ++ valueText py p.default k ++ (c% "  ") ++ List.replicate m ' ' ++ '#' :: rest)) st =
      .ok (some (st.setTo name cv)) := by
  obtain ⟨hnt, hnc⟩ := nameText_good g.name_ne g.name_ok k
  obtain ⟨hvt, hvc⟩ := valueText_typed g.typed
  obtain ⟨n, vals, hp, hv, hr⟩ := read_good g
  have hns := g.name_short
  have hvs := g.value_short
  generalize nameText name k = nt at *
  generalize valueText py p.default k = vt at *
  have hmem : ∀ c ∈ ['#', '\n', '\x00'], c ∉ nt ++ (c% " = ") ++ vt ++ (c% "  ") ++ List.replicate m ' ' := by
    intro c hc hm
    simp only [List.mem_append] at hm
    rcases hm with (((hm | hm) | hm) | hm) | hm
    · refine hnc c hm ?_
      simp only [List.mem_cons, List.not_mem_nil, or_false] at hc ⊢
      rcases hc with rfl | rfl | rfl <;> simp
    · simp only [List.mem_cons, List.not_mem_nil, or_false] at hc hm
      rcases hc with rfl | rfl | rfl <;> revert hm <;> decide
    · refine hvc c hm ?_
      simp only [List.mem_cons, List.not_mem_nil, or_false] at hc ⊢
      rcases hc with rfl | rfl | rfl <;> simp
    · simp only [List.mem_cons, List.not_mem_nil, or_false] at hc hm
      rcases hc with rfl | rfl | rfl <;> revert hm <;> decide
    · rw [(List.mem_replicate.1 hm).2] at hc
      revert hc; decide
  unfold parseLine
  rw [cStr_comment rest (hmem _ (by decide)) (hmem _ (by decide))]
  have etok : tokens '=' (nt ++ (c% " = ") ++ vt ++ (c% "  ") ++ List.replicate m ' ') =
      [List.replicate 0 ' ' ++ nt ++ List.replicate 1 ' ', List.replicate 1 ' ' ++ vt ++ List.replicate (m + 2) ' '] := by
    have e : nt ++ (c% " = ") ++ vt ++ (c% "  ") ++ List.replicate m ' ' =
        (nt ++ [' ']) ++ '=' :: (' ' :: vt ++ ' ' :: ' ' :: List.replicate m ' ') := by simp
    have e1 : '=' ∉ nt ++ [' '] := by
      simp only [List.mem_append, not_or]
      exact ⟨fun h => hnc _ h (by decide), by decide⟩
    have e2 : '=' ∉ ' ' :: vt ++ ' ' :: ' ' :: List.replicate m ' ' := by
      simp only [List.mem_append, List.mem_cons, not_or, List.mem_replicate]
      exact ⟨⟨by decide, fun h => hvc _ h (by decide)⟩, by decide, by decide, fun h => absurd h.2 (by decide)⟩
    rw [e, tokens, split1_append_sep _ _ _ e1, split1_of_not_mem _ _ e2]
    rw [List.filter_cons, if_pos (by simp), List.filter_cons, if_pos (by simp)]
    simp [List.replicate_succ]
  rw [etok]
  dsimp only
  rw [hnt.trim 0 1, safeCopy_short hns]
  show nameValue strtod numParams table _ _ st = _
  unfold nameValue
  rw [hvt.trim 1 (m + 2), hnt.trim 0 1, safeCopy_short hvs]
  show ((parseParam nt).bind _) = _
  rw [hp]
  show (if name.all (fun c => cAlnum c || c == '_') = true then _ else _) = _
  rw [if_pos (by
    rw [List.all_eq_true]
    intro c hc
    simpa using g.name_ok c hc), hv]
  show (match findDesc table name with
    | none => (.ok none : CM (Option (PState F)))
    | some d => (setParam strtod numParams table d n vals st).map some) = _
  rw [hf]
  dsimp only
  have hidx : table.findIdx (fun e => e.name = name) < table.length :=
    List.findIdx_lt_length_of_exists ⟨_, (findDesc_mem hf).1, by simp⟩
  rw [setParam, if_neg (by dsimp only; omega), if_neg hset]
  dsimp only
  rw [hr]
  rfl

/-! ## The loop over the lines -/

/-- A line of the file that belongs to a parameter. -/
def LineOf (py : PyNum F) (w : Nat) (l : Str) (np : Str × CodeParam F) : Prop :=
  ∃ line, paramLine py np.1 np.2 = some line ∧ l = alignLine w line ++ ['\n']

theorem head_strip {c : Char} (s : Str) (h : pySpace c = false) : ∃ t, pyStrip (c :: s) = c :: t := by
  obtain ⟨a, b, ha, hb, e⟩ := strip_split (c :: s)
  cases a with
  | cons x a =>
    rw [List.cons_append, List.cons_append, List.cons.injEq] at e
    rw [e.1, ha x (by simp)] at h
    cases h
  | nil =>
    cases hp : pyStrip (c :: s) with
    | nil =>
      rw [hp] at e
      simp only [List.append_nil, List.nil_append] at e
      rw [hb c (by rw [← e]; simp)] at h
      cases h
    | cons d t =>
      rw [hp] at e
      simp only [List.nil_append, List.cons_append, List.cons.injEq] at e
      exact ⟨t, by rw [e.1]⟩

theorem alignLine_comment (w : Nat) (s : Str) : alignLine w ('#' :: s) = '#' :: s := by
  obtain ⟨t, ht⟩ := head_strip (c := '#') s (by decide)
  unfold alignLine
  have : hasComment ('#' :: s) = false := by
    unfold hasComment
    rw [ht]
    simp [List.isPrefixOf]
  rw [this]
  rfl

theorem alignLine_param (w : Nat) (c : Char) (pre rest : Str) (hc : pySpace c = false) (h : '#' ∉ c :: pre) :
    alignLine w (c :: pre ++ '#' :: rest) =
      c :: pre ++ List.replicate (w - (c :: pre).length) ' ' ++ '#' :: rest := by
  obtain ⟨t, ht⟩ := head_strip (c := c) (pre ++ '#' :: rest) hc
  have hidx : (c :: pre ++ '#' :: rest).findIdx (· == '#') = (c :: pre).length := by
    generalize c :: pre = x at h
    clear ht hc
    induction x with
    | nil => simp [List.findIdx_cons]
    | cons z x ih =>
      simp only [List.mem_cons, not_or] at h
      have : (z == '#') = false := by simpa using Ne.symm h.1
      rw [List.cons_append, List.findIdx_cons, ih h.2, this]
      rfl
  have hh : hasComment (c :: pre ++ '#' :: rest) = true := by
    unfold hasComment
    rw [List.cons_append, ht]
    have hne : ('#' == c) = false := by
      simp only [List.mem_cons, not_or] at h
      simpa using h.1
    simp [List.isPrefixOf, hne]
  unfold alignLine
  rw [if_pos hh]
  dsimp only
  rw [hidx, List.take_left, List.drop_left]

/-- Value of each parameter. -/
def Values (py : PyNum F) (strtod : Str → Option (F × Str × Bool)) (kind : Str → PKind) (val : Str → CVal F)
    (ps : List (Str × CodeParam F)) : Prop :=
  ∀ np ∈ ps, Good py strtod np.1 np.2 (kind np.1) (val np.1)

theorem lineOf_shape {name : Str} {p : CodeParam F} {k : PKind} {cv : CVal F} (g : Good py strtod name p k cv) {w : Nat}
    {l : Str} (h : LineOf py w l (name, p)) : ∃ m rest, l =
      nameText name k ++ (c% " = ") ++ valueText py p.default k ++ (c% "  ") ++ List.replicate m ' ' ++ '#' :: rest ∧
      ∃ l', l = l' ++ ['\n'] ∧ '\n' ∉ l' := by
  obtain ⟨line, h1, rfl⟩ := h
  obtain ⟨rest, h2, hr⟩ := paramLine_good g
  dsimp only at h1
  rw [h2] at h1
  cases h1
  obtain ⟨hnt, hnc⟩ := nameText_good g.name_ne g.name_ok k
  obtain ⟨-, hvc⟩ := valueText_typed g.typed
  have hmem : ∀ c ∈ ['#', '\n'], c ∉ nameText name k ++ (c% " = ") ++ valueText py p.default k ++ (c% "  ") := by
    intro c hc hm
    simp only [List.mem_append] at hm
    rcases hm with ((hm | hm) | hm) | hm
    · refine hnc c hm ?_
      simp only [List.mem_cons, List.not_mem_nil, or_false] at hc ⊢
      rcases hc with rfl | rfl <;> simp
    · simp only [List.mem_cons, List.not_mem_nil, or_false] at hc hm
      rcases hc with rfl | rfl <;> revert hm <;> decide
    · refine hvc c hm ?_
      simp only [List.mem_cons, List.not_mem_nil, or_false] at hc ⊢
      rcases hc with rfl | rfl <;> simp
    · simp only [List.mem_cons, List.not_mem_nil, or_false] at hc hm
      rcases hc with rfl | rfl <;> revert hm <;> decide
  have hname : ∃ c t, nameText name k = c :: t ∧ pySpace c = false := by
    cases hname : name with
    | nil => exact absurd hname g.name_ne
    | cons c t =>
      have := (alnum_not_space (g.name_ok c (by rw [hname]; simp))).2
      cases k <;> exact ⟨c, _, rfl, this⟩
  obtain ⟨c, t, e, hc⟩ := hname
  have ha := alignLine_param w c (t ++ (c% " = ") ++ valueText py p.default k ++ (c% "  ")) rest hc (by
    have := hmem '#' (by decide)
    rw [e] at this
    simpa using this)
  refine ⟨w - (c :: (t ++ (c% " = ") ++ valueText py p.default k ++ (c% "  "))).length, rest ++ ['\n'], ?_, _, rfl, ?_⟩
  · rw [e]
    simp only [List.cons_append, List.append_assoc] at ha ⊢
    rw [ha]
    simp
  · rw [e]
    have h1 := hmem '\n' (by decide)
    rw [e] at h1
    simp only [List.cons_append, List.append_assoc] at ha h1 ⊢
    rw [ha]
    simp only [List.mem_cons, List.mem_append, not_or, List.mem_replicate] at h1 ⊢
    simp only [h1, hr, not_false_eq_true, true_and, and_true]
    exact ⟨fun h => h.2, by decide⟩

/-- Lines of parameters with different names that are not set yet. -/
theorem parseLines_good (numParams : Nat) (table : List Desc) (hn : table.length ≤ numParams) (kind : Str → PKind)
    (val : Str → CVal F) (w : Nat) : ∀ (ls : List Str) (ps : List (Str × CodeParam F)), List.Forall₂ (LineOf py w) ls ps →
      Values py strtod kind val ps → (∀ np ∈ ps, findDesc table np.1 = some ⟨np.1, kind np.1⟩) → (ps.map (·.1)).Nodup →
      ∀ st : PState F, (∀ np ∈ ps, np.1 ∉ st.set) → ∃ st', parseLines strtod numParams table [] (ls.map cStr) st = .ok st' ∧
        ∀ name, st'.data name = if name ∈ ps.map (·.1) then some (val name) else st.data name
  | [], _, h, _, _, _, st, _ => by
    cases h
    exact ⟨st, rfl, by simp⟩
  | l :: ls, _, h, hv, hf, hnd, st, hs => by
    cases h with
    | @cons _ np _ ps h1 h2 =>
      obtain ⟨name, p⟩ := np
      rw [List.map_cons, List.nodup_cons] at hnd
      have g := hv _ List.mem_cons_self
      obtain ⟨m, rest, e, -⟩ := lineOf_shape g h1
      have hl := parseLine_good g numParams table (hf _ List.mem_cons_self) hn m rest st (hs _ List.mem_cons_self)
      obtain ⟨st', hp, hd⟩ := parseLines_good numParams table hn kind val w ls ps h2
        (fun np h => hv np (List.mem_cons_of_mem _ h)) (fun np h => hf np (List.mem_cons_of_mem _ h)) hnd.2
        (st.setTo name (val name)) (by
          intro np hnp hm
          rcases List.mem_cons.1 hm with h | h
          · exact hnd.1 (List.mem_map.2 ⟨np, hnp, h⟩)
          · exact hs np (List.mem_cons_of_mem _ hnp) h)
      refine ⟨st', ?_, ?_⟩
      · rw [List.map_cons, parseLines, e, hl]
        exact hp
      · intro nm
        rw [hd nm]
        show (if nm ∈ ps.map (·.1) then some (val nm) else if nm = name then some (val name) else st.data nm) = _
        by_cases h3 : nm ∈ ps.map (·.1)
        · rw [if_pos h3, if_pos (by rw [List.map_cons]; exact List.mem_cons_of_mem _ h3)]
        · rw [if_neg h3]
          by_cases h4 : nm = name
          · subst h4
            rw [if_pos rfl, if_pos (by simp)]
          · rw [if_neg h4, if_neg (by
              simp only [List.map_cons, List.mem_cons, not_or]
              exact ⟨h4, h3⟩)]

/-- Comment lines do nothing. -/
theorem parseLines_comments (numParams : Nat) (table : List Desc) : ∀ (ls : List Str) (st : PState F),
    parseLines strtod numParams table [] (ls.map cStr) st =
      parseLines strtod numParams table [] ((ls.filter fun l => l.head? ≠ some '#').map cStr) st
  | [], _ => rfl
  | l :: ls, st => by
    rw [List.filter_cons]
    split
    · rw [List.map_cons, List.map_cons, parseLines, parseLines]
      congr 1
      funext r
      cases r with
      | none => exact parseLines_comments numParams table ls st
      | some st' =>
        show parseLines strtod numParams table [] (ls.map cStr) st' = _
        exact parseLines_comments numParams table ls st'
    · next h =>
      cases l with
      | nil => simp at h
      | cons c s =>
        have hc : c = '#' := by simpa using h
        subst hc
        rw [List.map_cons, parseLines]
        have : cStr ('#' :: s) = '#' :: cStr s := List.takeWhile_cons_of_pos (by decide)
        rw [this]
        show parseLines strtod numParams table [] (ls.map cStr) st = _
        exact parseLines_comments numParams table ls st

end

/-! ## Sorting and grouping -/

theorem insertBy_perm {α : Type} (key : α → Str) (x : α) : ∀ l : List α, (insertBy key x l).Perm (x :: l)
  | [] => List.Perm.refl _
  | y :: l => by
    rw [insertBy]
    split
    · exact List.Perm.refl _
    · exact ((insertBy_perm key x l).cons y).trans (List.Perm.swap x y l)

theorem sortBy_perm {α : Type} (key : α → Str) : ∀ l : List α, (sortBy key l).Perm l
  | [] => List.Perm.refl _
  | x :: l => (insertBy_perm key x (sortBy key l)).trans ((sortBy_perm key l).cons x)

theorem insertStr_perm (x : Str) : ∀ l : List Str, (insertStr x l).Perm (x :: l)
  | [] => List.Perm.refl _
  | y :: l => by
    rw [insertStr]
    split
    · exact List.Perm.refl _
    · exact ((insertStr_perm x l).cons y).trans (List.Perm.swap x y l)

theorem sortedStr_perm : ∀ l : List Str, (sortedStr l).Perm l
  | [] => List.Perm.refl _
  | x :: l => (insertStr_perm x (sortedStr l)).trans ((sortedStr_perm l).cons x)

theorem set_perm (k : Str) (x : Str) : ∀ d : Dict Str (List Str),
    ((d.set k ((d.get? k).getD [] ++ [x])).flatMap (·.2)).Perm (x :: d.flatMap (·.2))
  | [] => by simp [Dict.set, Dict.get?]
  | (k', v) :: d => by
    by_cases h : k' = k
    · subst h
      simp only [Dict.set, Dict.get?, if_true, Option.getD_some, List.flatMap_cons]
      rw [List.append_assoc, List.singleton_append]
      exact List.perm_middle
    · have ih := set_perm k x d
      simp only [Dict.set, Dict.get?, if_neg h, List.flatMap_cons]
      exact (List.Perm.append_left v ih).trans List.perm_middle

theorem perm_flatMap_of {α β : Type} (f g : α → List β) : ∀ l : List α, (∀ a ∈ l, (f a).Perm (g a)) →
    (l.flatMap f).Perm (l.flatMap g)
  | [], _ => List.Perm.refl _
  | a :: l, h => by
    rw [List.flatMap_cons, List.flatMap_cons]
    exact (h a List.mem_cons_self).append (perm_flatMap_of f g l fun a ha => h a (List.mem_cons_of_mem _ ha))

section
variable {F : Type} {py : PyNum F} {strtod : Str → Option (F × Str × Bool)}

def listed (np : Str × CodeParam F) : Bool := np.2.commondata && np.2.addToParfile

/-- A line with its newline. -/
def RawLine (py : PyNum F) (l : Str) (np : Str × CodeParam F) : Prop :=
  ∃ line, paramLine py np.1 np.2 = some line ∧ l = line ++ ['\n']

theorem collect_ok (kind : Str → PKind) (val : Str → CVal F) : ∀ (l : List (Str × CodeParam F)) (d : Dict Str (List Str)),
    Values py strtod kind val (l.filter listed) → ∃ d', collect py l d = some d' ∧
      (∃ ls, List.Forall₂ (RawLine py) ls (l.filter listed) ∧ (d'.flatMap (·.2)).Perm (ls ++ d.flatMap (·.2))) ∧
      (∀ m ∈ d'.keys, m ∈ d.keys ∨ ∃ np ∈ l.filter listed, m = np.2.module)
  | [], d, _ => ⟨d, rfl, ⟨[], List.Forall₂.nil, List.Perm.refl _⟩, fun m h => Or.inl h⟩
  | (name, p) :: l, d, hv => by
    rw [collect]
    by_cases hl : (p.commondata && p.addToParfile) = true
    · have hfil : ((name, p) :: l).filter listed = (name, p) :: l.filter listed :=
        List.filter_cons_of_pos (by exact hl)
      rw [hfil] at hv ⊢
      rw [if_pos hl]
      obtain ⟨rest, h1, -⟩ := paramLine_good (hv _ List.mem_cons_self)
      dsimp only at h1
      rw [h1]
      generalize hline : nameText name (kind name) ++ (c% " = ") ++ valueText py p.default (kind name) ++ (c% "  ") ++ '#' :: rest = line at *
      obtain ⟨d', h2, ⟨ls, h3, h4⟩, h5⟩ := collect_ok kind val l
        (d.set p.module ((d.get? p.module).getD [] ++ [line ++ (c% "\n")]))
        (fun np h => hv np (List.mem_cons_of_mem _ h))
      refine ⟨d', h2, ⟨(line ++ ['\n']) :: ls, List.Forall₂.cons ⟨line, h1, rfl⟩ h3, ?_⟩, ?_⟩
      · refine h4.trans ?_
        exact (List.Perm.append_left ls (set_perm _ _ d)).trans List.perm_middle
      · intro m hm
        rcases h5 m hm with h | ⟨np, hnp, h⟩
        · rw [Dict.keys_set] at h
          split at h
          · exact Or.inl h
          · rcases List.mem_append.1 h with h | h
            · exact Or.inl h
            · exact Or.inr ⟨_, List.mem_cons_self, List.mem_singleton.1 h⟩
        · exact Or.inr ⟨np, List.mem_cons_of_mem _ hnp, h⟩
    · have hfil : ((name, p) :: l).filter listed = l.filter listed := List.filter_cons_of_neg (by exact hl)
      rw [hfil] at hv ⊢
      rw [if_neg hl]
      exact collect_ok kind val l d hv

theorem tableRows_ok (kind : Str → PKind) (val : Str → CVal F) : ∀ (l : List (Str × CodeParam F)),
    Values py strtod kind val (l.filter listed) → tableRows l = some ((l.filter listed).map fun np => ⟨np.1, kind np.1⟩)
  | [], _ => rfl
  | (name, p) :: l, hv => by
    rw [tableRows]
    by_cases hl : (p.commondata && p.addToParfile) = true
    · have hfil : ((name, p) :: l).filter listed = (name, p) :: l.filter listed :=
        List.filter_cons_of_pos (by exact hl)
      rw [hfil] at hv ⊢
      rw [if_pos (by rw [Bool.and_comm]; exact hl), classify_typed (hv _ List.mem_cons_self).typed]
      show (tableRows l).map _ = _
      rw [tableRows_ok kind val l fun np h => hv np (List.mem_cons_of_mem _ h)]
      rfl
    · have hfil : ((name, p) :: l).filter listed = l.filter listed := List.filter_cons_of_neg (by exact hl)
      rw [hfil] at hv ⊢
      rw [if_neg (by rw [Bool.and_comm]; exact hl)]
      exact tableRows_ok kind val l hv

theorem findDesc_map (kind : Str → PKind) (l : List (Str × CodeParam F)) (np : Str × CodeParam F) (h : np ∈ l) :
    findDesc (l.map fun np => (⟨np.1, kind np.1⟩ : Desc)) np.1 = some ⟨np.1, kind np.1⟩ := by
  induction l with
  | nil => cases h
  | cons x l ih =>
    unfold findDesc at ih ⊢
    rw [List.map_cons, List.find?_cons]
    by_cases hx : x.1 = np.1
    · rw [show decide (x.1 = np.1) = true from decide_eq_true hx, hx]
    · rw [show decide (x.1 = np.1) = false from decide_eq_false hx]
      rcases List.mem_cons.1 h with rfl | h
      · exact absurd rfl hx
      · exact ih h

/-! ## The text as lines -/

/-- Lines of `output_str` with their newlines. -/
def rawLines (project : Str) (d : Dict Str (List Str)) : List Str :=
  ('#' :: (c% "### ") ++ project ++ (c% " BH@H parameter file. NOTE: only commondata CodeParameters appear here ###\n")) ::
    (sortBy (·.1) d).flatMap fun m =>
      ('#' :: (c% "##########################\n")) :: ('#' :: (c% "##########################\n")) ::
        ('#' :: (c% "## Module: ") ++ m.1 ++ (c% "\n")) :: sortedStr m.2

theorem rawLines_flatten (project : Str) (d : Dict Str (List Str)) : outputStr project d = (rawLines project d).flatten := by
  unfold outputStr rawLines
  rw [List.flatten_cons]
  congr 1
  generalize sortBy (·.1) d = l
  induction l with
  | nil => rfl
  | cons m l ih =>
    rw [List.map_cons, List.flatten_cons, List.flatMap_cons, List.flatten_append, ih]
    congr 1

theorem filter_rawLines (project : Str) (d : Dict Str (List Str)) (P : Str → Bool) (hc : ∀ s, P ('#' :: s ++ ['\n']) = false)
    (hp : ∀ m ∈ d, ∀ l ∈ m.2, P l = true) :
    (rawLines project d).filter P = (sortBy (·.1) d).flatMap fun m => sortedStr m.2 := by
  have hd : ∀ m ∈ sortBy (·.1) d, ∀ l ∈ m.2, P l = true := fun m hm => hp m ((sortBy_perm _ d).subset hm)
  unfold rawLines
  have hfirst : '#' :: (c% "### ") ++ project ++
      (c% " BH@H parameter file. NOTE: only commondata CodeParameters appear here ###\n") =
      '#' :: ((c% "### ") ++ project ++ (c% " BH@H parameter file. NOTE: only commondata CodeParameters appear here ###")) ++
        ['\n'] := by simp
  rw [List.filter_cons_of_neg (by rw [hfirst, hc]; decide)]
  generalize sortBy (·.1) d = l at hd
  induction l with
  | nil => rfl
  | cons m l ih =>
    rw [List.flatMap_cons, List.flatMap_cons, List.filter_append, ih fun m hm => hd m (List.mem_cons_of_mem _ hm)]
    congr 1
    have h1 := hc (c% "##########################")
    have h2 := hc ((c% "## Module: ") ++ m.1)
    rw [List.filter_cons_of_neg (by exact Bool.eq_false_iff.1 h1), List.filter_cons_of_neg (by exact Bool.eq_false_iff.1 h1),
      List.filter_cons_of_neg (by
        simp only [List.cons_append, List.append_assoc] at h2 ⊢
        rw [h2]; decide), List.filter_eq_self]
    intro x hx
    exact hd m List.mem_cons_self x ((mem_sortedStr x m.2).1 hx)

theorem alignLine_newline (w : Nat) {l : Str} (h : '\n' ∉ l) : '\n' ∉ alignLine w l := by
  unfold alignLine
  split
  · simp only [List.mem_append, not_or, List.mem_replicate]
    exact ⟨⟨fun hm => h (List.mem_of_mem_take hm), fun hm => absurd hm.2 (by decide)⟩, fun hm => h (List.mem_of_mem_drop hm)⟩
  · exact h

theorem alignByHash_lines (L : List Str) (h : ∀ l ∈ L, '\n' ∉ l) :
    ∃ w, alignByHash (L.map (· ++ ['\n'])).flatten = ((L.map (alignLine w)).map (· ++ ['\n'])).flatten ∧
      split1 '\n' (alignByHash (L.map (· ++ ['\n'])).flatten) = L.map (alignLine w) ++ [[]] := by
  have h1 : split1 '\n' (L.map (· ++ ['\n'])).flatten = L ++ [[]] := by
    rw [flatten_lines, split1_joinWith _ _ (by simp)]
    intro p hp
    rcases List.mem_append.1 hp with hp | hp
    · exact h p hp
    · rw [List.mem_singleton.1 hp]; simp
  have h2 : alignByHash (L.map (· ++ ['\n'])).flatten =
      ((L.map (alignLine (alignWidth (L ++ [[]])))).map (· ++ ['\n'])).flatten := by
    unfold alignByHash
    rw [h1, flatten_lines, List.map_append]
    rfl
  refine ⟨_, h2, ?_⟩
  rw [h2, flatten_lines, split1_joinWith _ _ (by simp)]
  intro p hp
  rcases List.mem_append.1 hp with hp | hp
  · obtain ⟨l, hl, rfl⟩ := List.mem_map.1 hp
    exact alignLine_newline _ (h l hl)
  · rw [List.mem_singleton.1 hp]; simp

theorem fgetsAux_line (r : Str) : ∀ (l cur : Str) (room : Nat), '\n' ∉ l → l.length < room →
    fgetsAux cur room (l ++ '\n' :: r) = (cur ++ l ++ ['\n']) :: fgetsAux [] (lineSize - 1) r
  | [], cur, room, _, h => by
    rw [List.nil_append, fgetsAux, if_pos (Or.inl rfl), List.append_nil]
  | c :: l, cur, room, hn, h => by
    simp only [List.mem_cons, not_or] at hn
    rw [List.length_cons] at h
    rw [List.cons_append, fgetsAux, if_neg (by
      simp only [not_or]
      exact ⟨Ne.symm hn.1, by omega⟩), fgetsAux_line r l _ _ hn.2 (by omega)]
    simp

theorem fgetsAll_lines : ∀ L : List Str, (∀ l ∈ L, '\n' ∉ l ∧ l.length ≤ 1022) →
    fgetsAll (L.map (· ++ ['\n'])).flatten = L.map (· ++ ['\n'])
  | [], _ => rfl
  | l :: L, h => by
    have h1 := h l List.mem_cons_self
    have ih := fgetsAll_lines L fun l hl => h l (List.mem_cons_of_mem _ hl)
    unfold fgetsAll at ih ⊢
    rw [List.map_cons, List.flatten_cons, List.append_assoc, List.singleton_append,
      fgetsAux_line _ _ _ _ h1.1 (by simp only [lineSize]; omega), ih]
    rfl

theorem forall₂_mem {α β : Type} {R : α → β → Prop} {l : List α} {m : List β} (h : List.Forall₂ R l m) {a : α} (ha : a ∈ l) :
    ∃ b ∈ m, R a b := by
  induction h with
  | nil => cases ha
  | cons h1 h2 ih =>
    rcases List.mem_cons.1 ha with rfl | ha
    · exact ⟨_, List.mem_cons_self, h1⟩
    · obtain ⟨b, hb, hr⟩ := ih ha
      exact ⟨b, List.mem_cons_of_mem _ hb, hr⟩

/-- **C40** (partial): for every set of parameters that can be written (names of letters, digits and underscores; types
`REAL`, `int`, `char[n]`, `REAL[n]`, `int[n]` with matching defaults; texts without `#`, `=`, quotes, newlines and NUL; not
too long), the default parameter file is generated, and if its lines have at most 1022 characters the C program accepts
it, gives every parameter in it the registered default value, and changes nothing else.  For other parameters this fails, see
the examples below. -/
theorem C40_roundtrip_partial (py : PyNum F) (strtod : Str → Option (F × Str × Bool)) (project : Str)
    (hproject : '\n' ∉ project) (params : Dict Str (CodeParam F)) (hwf : params.Wf) (kind : Str → PKind)
    (val : Str → CVal F) (hgood : ∀ name p, Listed params name p → Good py strtod name p (kind name) (val name))
    (data : Str → Option (CVal F)) :
    ∃ text table, defaultParfile py project params = some text ∧ paramTable params = some table ∧
      ((∀ l ∈ split1 '\n' text, l.length ≤ 1022) → ∃ data', parseFile strtod table.length table [] text data = .ok data' ∧
        (∀ name p, Listed params name p → data' name = some (val name)) ∧
        ∀ name, (¬ ∃ p, Listed params name p) → data' name = data name) := by
  have hlist : ∀ (l : List (Str × CodeParam F)), l.Perm params → ∀ np, np ∈ l.filter listed ↔ Listed params np.1 np.2 := by
    intro l hl np
    rw [List.mem_filter, hl.mem_iff]
    simp [Listed, listed]
  have hval : ∀ (l : List (Str × CodeParam F)), l.Perm params → Values py strtod kind val (l.filter listed) :=
    fun l hl np hnp => hgood _ _ ((hlist l hl np).1 hnp)
  obtain ⟨d, hd, ⟨ls, hls, hperm⟩, hmods⟩ :=
    collect_ok kind val (sortBy (·.2.module) params) [] (hval _ (sortBy_perm _ _))
  rw [List.flatMap_nil, List.append_nil] at hperm
  have htab := tableRows_ok kind val (sortBy (·.1) params) (hval _ (sortBy_perm _ _))
  refine ⟨alignByHash (outputStr project d), _, by rw [defaultParfile, hd]; rfl, htab, fun hlen => ?_⟩
  -- the parameter lines in the order of the file
  have hQ : ((sortBy (·.1) d).flatMap fun m => sortedStr m.2).Perm ls :=
    ((perm_flatMap_of _ (·.2) _ fun m _ => sortedStr_perm m.2).trans ((sortBy_perm (·.1) d).flatMap_right _)).trans hperm
  obtain ⟨ps, hps, hpsperm⟩ := List.perm_comp_forall₂ hQ hls
  have hpsl : ps.Perm (params.filter listed) := hpsperm.trans ((sortBy_perm _ _).filter _)
  have hpsmem : ∀ np, np ∈ ps ↔ Listed params np.1 np.2 := fun np => by
    rw [hpsl.mem_iff]
    exact hlist params (List.Perm.refl _) np
  have hpsval : Values py strtod kind val ps := fun np hnp => hgood _ _ ((hpsmem np).1 hnp)
  -- every raw line ends in a newline and has no other
  have hraw : ∀ l ∈ rawLines project d, ∃ s, l = s ++ ['\n'] ∧ '\n' ∉ s := by
    intro l hl
    unfold rawLines at hl
    rcases List.mem_cons.1 hl with rfl | hl
    · refine ⟨'#' :: (c% "### ") ++ project ++ (c% " BH@H parameter file. NOTE: only commondata CodeParameters appear here ###"),
        by simp, ?_⟩
      rw [List.mem_append, List.mem_append, not_or, not_or]
      exact ⟨⟨by decide, hproject⟩, by decide⟩
    · obtain ⟨m, hm, hl⟩ := List.mem_flatMap.1 hl
      rcases List.mem_cons.1 hl with rfl | hl
      · exact ⟨(c% "###########################"), rfl, by decide⟩
      rcases List.mem_cons.1 hl with rfl | hl
      · exact ⟨(c% "###########################"), rfl, by decide⟩
      rcases List.mem_cons.1 hl with rfl | hl
      · refine ⟨'#' :: (c% "## Module: ") ++ m.1, by simp, ?_⟩
        have hmd : m.1 ∈ d.keys := List.mem_map.2 ⟨m, (sortBy_perm _ d).subset hm, rfl⟩
        simp only [List.mem_append, not_or]
        refine ⟨by decide, ?_⟩
        rcases hmods _ hmd with h | ⟨np, hnp, h⟩
        · cases h
        · rw [h]
          exact (hval _ (sortBy_perm _ _) np hnp).module_line
      · have hq : l ∈ (sortBy (·.1) d).flatMap fun m => sortedStr m.2 := List.mem_flatMap.2 ⟨m, hm, hl⟩
        obtain ⟨np, hnp, line, h1, rfl⟩ := forall₂_mem hps hq
        have g := hpsval np hnp
        obtain ⟨rest, h2, hr⟩ := paramLine_good g
        rw [h2] at h1
        cases h1
        refine ⟨_, rfl, ?_⟩
        have hn := (nameText_good g.name_ne g.name_ok (kind np.1)).2
        have hv := (valueText_typed g.typed).2
        simp only [List.mem_append, List.mem_cons, not_or]
        exact ⟨⟨⟨⟨fun h => hn _ h (by decide), by decide⟩, fun h => hv _ h (by decide)⟩, by decide⟩, by decide, hr⟩
  have hL : rawLines project d = ((rawLines project d).map List.dropLast).map (· ++ ['\n']) := by
    rw [List.map_map]
    conv_lhs => rw [← List.map_id (rawLines project d)]
    apply List.map_congr_left
    intro l hl
    obtain ⟨s, rfl, -⟩ := hraw l hl
    simp
  have hLn : ∀ l ∈ (rawLines project d).map List.dropLast, '\n' ∉ l := by
    intro l hl
    obtain ⟨x, hx, rfl⟩ := List.mem_map.1 hl
    obtain ⟨s, rfl, hs⟩ := hraw x hx
    simpa using hs
  obtain ⟨w, hw1, hw2⟩ := alignByHash_lines _ hLn
  rw [← hL, ← rawLines_flatten] at hw1 hw2
  rw [hw2] at hlen
  have hfgets : fgetsAll (alignByHash (outputStr project d)) =
      (rawLines project d).map fun l => alignLine w l.dropLast ++ ['\n'] := by
    rw [hw1, fgetsAll_lines]
    · rw [List.map_map, List.map_map]; rfl
    · intro l hl
      refine ⟨?_, hlen l (List.mem_append_left _ hl)⟩
      obtain ⟨x, hx, rfl⟩ := List.mem_map.1 hl
      exact alignLine_newline w (hLn x hx)
  have hfor : List.Forall₂ (LineOf py w) (((sortBy (·.1) d).flatMap fun m => sortedStr m.2).map fun l => alignLine w l.dropLast ++ ['\n']) ps := by
    rw [List.forall₂_map_left_iff]
    refine hps.imp ?_
    rintro l np ⟨line, h1, rfl⟩
    exact ⟨line, h1, by simp⟩
  have hfilter : ((rawLines project d).map fun l => alignLine w l.dropLast ++ ['\n']).filter (fun l => l.head? ≠ some '#') =
      ((sortBy (·.1) d).flatMap fun m => sortedStr m.2).map fun l => alignLine w l.dropLast ++ ['\n'] := by
    rw [List.filter_map, filter_rawLines]
    · intro s
      have : ('#' :: s ++ ['\n']).dropLast = '#' :: s := by rw [List.dropLast_concat]
      simp only [Function.comp, this, alignLine_comment]
      rfl
    · intro m hm l hl
      have hq : l ∈ (sortBy (·.1) d).flatMap fun m => sortedStr m.2 :=
        List.mem_flatMap.2 ⟨m, (sortBy_perm _ d).symm.subset hm, (mem_sortedStr l m.2).2 hl⟩
      obtain ⟨np, hnp, hr⟩ := forall₂_mem hfor (List.mem_map_of_mem hq)
      have g := hpsval np hnp
      obtain ⟨k, rest, e, -⟩ := lineOf_shape g hr
      show decide _ = true
      apply decide_eq_true
      show (alignLine w l.dropLast ++ ['\n']).head? ≠ some '#'
      rw [e]
      have hn := (nameText_good g.name_ne g.name_ok (kind np.1))
      obtain ⟨⟨c, _, t, _, e1, _⟩, hn⟩ := hn
      have hc := hn c (by rw [e1]; simp)
      rw [e1]
      rw [List.mem_cons, not_or] at hc
      simp only [List.cons_append, List.head?_cons, ne_eq, Option.some.injEq]
      exact hc.1
  have hparse := parseLines_good _ _ (Nat.le_refl (((sortBy (·.1) params).filter listed).map
      fun np => (⟨np.1, kind np.1⟩ : Desc)).length) kind val w _ ps hfor hpsval ?_ ?_ ⟨data, []⟩ (by simp)
  · obtain ⟨st', hst, hdata⟩ := hparse
    refine ⟨st'.data, ?_, ?_, ?_⟩
    · unfold parseFile
      rw [hfgets, parseLines_comments, hfilter, hst]
      rfl
    · intro name p hl
      rw [hdata name, if_pos (List.mem_map.2 ⟨(name, p), (hpsmem _).2 hl, rfl⟩)]
    · intro name hl
      rw [hdata name, if_neg]
      intro hm
      obtain ⟨np, hnp, rfl⟩ := List.mem_map.1 hm
      exact hl ⟨np.2, (hpsmem np).1 hnp⟩
  · intro np hnp
    exact findDesc_map kind _ np ((hlist _ (sortBy_perm _ _) np).2 ((hpsmem np).1 hnp))
  · have : (ps.map (·.1)).Perm ((params.filter listed).map (·.1)) := hpsl.map _
    rw [this.nodup_iff]
    exact (List.filter_sublist.map _).nodup hwf

end

/-! ## Examples -/

/-- Numbers represented by their text, for the examples. -/
def demoPy : PyNum Str where
  repr x := x
  toFloat v := match v with
    | .real x => some x
    | .int n => some (intStr n ++ (c% ".0"))
    | .str _ => none
  toInt v := match v with
    | .int n => some n
    | _ => none

def textStrtod (s : Str) : Option (Str × Str × Bool) := some (s, [], false)

/-- A parameter in the file. -/
def demoParam (ctype : Str) (v : PyVal Str) (desc : Str) : CodeParam Str := ⟨(c% "M"), ctype, v, desc, true, true⟩

/-- Parameters of the doctest (lines 668-753). -/
def demoParams : Dict Str (CodeParam Str) :=
  [((c% "a"), demoParam (c% "REAL") (.real (c% "1.0")) (c% "The value of a")),
   ((c% "b"), ⟨(c% "M"), (c% "#define"), .int 0, (c% "A define parameter"), false, false⟩),
   ((c% "string"), demoParam (c% "char[100]") (.str (c% "cheese")) (c% "A string parameter")),
   ((c% "blahint"), demoParam (c% "int") (.int (-1)) (c% "An integer parameter")),
   ((c% "x_center"), demoParam (c% "REAL[3]") (.int 0) (c% "Initial X centers")),
   ((c% "levels"), demoParam (c% "int[2]") (.int 4) [])]

/-- The model gives the text of the doctest. -/
example : defaultParfile demoPy (c% "p") demoParams = some (
    (c% "#### p BH@H parameter file. NOTE: only commondata CodeParameters appear here ###\n") ++
    (c% "###########################\n###########################\n### Module: M\n") ++
    (c% "a = 1.0                          # (REAL) The value of a\n") ++
    (c% "blahint = -1                     # (int) An integer parameter\n") ++
    (c% "levels[2] = { 4, 4 }             # (int)\n") ++
    (c% "string = \"cheese\"                # (char[100]) A string parameter\n") ++
    (c% "x_center[3] = { 0.0, 0.0, 0.0 }  # (REAL) Initial X centers\n")) := by decide +kernel

def demoKind (name : Str) : PKind :=
  if name = (c% "a") then .real else if name = (c% "string") then .chars 100 else if name = (c% "blahint") then .int
  else if name = (c% "x_center") then .reals 3 else .ints 2

def demoVal (name : Str) : CVal Str :=
  if name = (c% "a") then .real (c% "1.0") else if name = (c% "string") then .chars (c% "cheese")
  else if name = (c% "blahint") then .int (-1) else if name = (c% "x_center") then .reals [(c% "0.0"), (c% "0.0"), (c% "0.0")]
  else .ints [4, 4]

/-- The hypotheses of `C40_roundtrip_partial` hold for them. -/
example : ∀ name p, Listed demoParams name p → Good demoPy textStrtod name p (demoKind name) (demoVal name) := by
  rintro name p ⟨hm, hc, _⟩
  simp only [demoParams, List.mem_cons, List.not_mem_nil, or_false, Prod.mk.injEq] at hm
  rcases hm with ⟨rfl, rfl⟩ | ⟨rfl, rfl⟩ | ⟨rfl, rfl⟩ | ⟨rfl, rfl⟩ | ⟨rfl, rfl⟩ | ⟨rfl, rfl⟩
  · exact ⟨by decide, by decide +kernel, .real _ _ rfl rfl ⟨by decide, by decide +kernel⟩, by decide +kernel,
      by decide +kernel, by decide +kernel, by decide +kernel⟩
  · cases hc
  · exact ⟨by decide, by decide +kernel, .chars 100 (c% "cheese") (by decide) (by decide +kernel), by decide +kernel,
      by decide +kernel, by decide +kernel, by decide +kernel⟩
  · exact ⟨by decide, by decide +kernel, .int (-1) (by constructor <;> decide), by decide +kernel,
      by decide +kernel, by decide +kernel, by decide +kernel⟩
  · exact ⟨by decide, by decide +kernel, .reals 3 _ _ rfl rfl ⟨by decide, by decide +kernel⟩ (by decide), by decide +kernel,
      by decide +kernel, by decide +kernel, by decide +kernel⟩
  · exact ⟨by decide, by decide +kernel, .ints 2 _ 4 rfl (by constructor <;> decide) (by decide), by decide +kernel,
      by decide +kernel, by decide +kernel, by decide +kernel⟩

/-- Writing the default file and reading it: the value of `x`, or `none` if the program does not accept the file. -/
def demoTrip (ctype : Str) (v : PyVal Str) (desc : Str) : Option (Option (CVal Str)) :=
  (defaultParfile demoPy (c% "p") [((c% "x"), demoParam ctype v desc)]).bind fun text =>
    (paramTable [((c% "x"), demoParam ctype v desc)]).bind fun table =>
      (parseFile textStrtod table.length table [] text fun _ => none).toOption.map fun d => d (c% "x")

/-- Violations: a quote comes back with a backslash; an equals sign or a hash cuts the text off (the opening
quote stays); a boolean is not set; a long array is refused; a large integer wraps around; a newline in a description can
make the file unacceptable. -/
theorem C40_violations :
    demoTrip (c% "char[10]") (.str (c% "a\"b")) [] = some (some (.chars (c% "a\\\"b"))) ∧
    demoTrip (c% "char[10]") (.str (c% "a=b")) [] = some (some (.chars (c% "\"a"))) ∧
    demoTrip (c% "char[10]") (.str (c% "a#b")) [] = some (some (.chars (c% "\"a"))) ∧
    demoTrip (c% "bool") (.str (c% "true")) [] = some none ∧
    demoTrip (c% "REAL[30]") (.real (c% "0.0")) [] = none ∧
    demoTrip (c% "int") (.int 4294967297) [] = some (some (.int 1)) ∧
    demoTrip (c% "int") (.int 1) (c% "one\nx = 2") = none := by
  refine ⟨?_, ?_, ?_, ?_, ?_, ?_, ?_⟩ <;> decide +kernel

end Verif.BHaH.Parfile
