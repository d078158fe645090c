import Verif.Proofs.GroupCoords

set_option linter.unusedSectionVars false

namespace Verif.GroupLib

open CPeano ReadParticles ReadRegion

variable {sys : Bool} {fs : ByteFS} {dir base : Name} {num : Nat} {Cs : Nat → Content} {n cells : Nat → Nat} {start : Nat → Nat → Nat} {nfile : Nat}

theorem coords_flatMap (l : List Nat) (g : Nat → List Particle) : coords (l.flatMap g) = l.flatMap (fun c => coords (g c)) := by
  unfold coords; rw [List.flatMap_assoc]

theorem coords_if (P : Nat → Bool) (g : Nat → List Particle) (size : Nat) :
    (List.range size).flatMap (fun c => if P c then coords (g c) else []) = coords ((List.range size).flatMap (fun c => if P c then g c else [])) := by
  rw [coords_flatMap]
  refine List.flatMap_congr fun c _ => ?_
  split <;> rfl

theorem ids_if (P : Nat → Bool) (g : Nat → List Particle) (size : Nat) :
    (List.range size).flatMap (fun c => if P c then (g c).map (fun p => leNat p.id) else []) = ((List.range size).flatMap (fun c => if P c then g c else [])).map (fun p => leNat p.id) := by
  rw [List.map_flatMap]
  refine List.flatMap_congr fun c _ => ?_
  split <;> rfl

theorem length_if (P : Nat → Bool) (g : Nat → List Particle) (size : Nat) :
    ((List.range size).flatMap (fun c => if P c then g c else [])).length = ((List.range size).map (fun c => if P c then (g c).length else 0)).sum := by
  rw [List.length_flatMap]
  congr 1
  refine List.map_congr_left fun c _ => ?_
  split <;> rfl

theorem flags_get (size : Nat) (ids : List Nat) {c : Nat} (hc : c < size) : (cellFlags size ids).getD c false = decide (c ∈ ids.map idCell) := by
  unfold cellFlags
  rw [List.getD_eq_getElem?_getD, List.getElem?_map, List.getElem?_range hc]
  rfl

/-- The particles in the cells of a group -/
theorem region_flags (ids : List Nat) : region Cs n cells start nfile (cellFlags (pre cells nfile) ids) =
    (List.range (pre cells nfile)).flatMap (fun c => if decide (c ∈ ids.map idCell) then cellAt Cs n cells start nfile c else []) := by
  rw [region_eq]
  refine List.flatMap_congr fun c hc => ?_
  rw [flags_get _ _ (List.mem_range.1 hc)]

theorem shift_ok (hn : nfile ≤ 2 ^ 30) : ((wholeTable n cells start nfile).filetable.take (pre cells nfile)).mapM (cShl · 1) =
    .ok (flagTab (pre cells nfile) (fileAt n cells start nfile) (fun _ => false)) := by
  have hl := whole_file_length (n := n) (cells := cells) (start := start) nfile
  rw [List.take_of_length_le (by omega)]
  have hm : ∀ v ∈ (wholeTable n cells start nfile).filetable, cShl v 1 = .ok (2 * v) := by
    intro v hv
    obtain ⟨c, hc, rfl⟩ := List.mem_iff_getElem.1 hv
    obtain ⟨f, j, hf, hj, e, _, _⟩ := cell_split (Cs := fun _ _ => []) (n := n) (start := start) (show c < pre cells nfile by omega)
    have hg := whole_file_get (n := n) (start := start) hf hj
    rw [← e, List.getElem?_eq_getElem hc] at hg
    rw [Option.some.inj hg]
    unfold cShl
    rw [if_neg (by omega)]
    have h2 : (2 : Int) ^ (1 : Int).toNat = 2 := rfl
    rw [h2, cInt_ok (by omega) (by omega), Int.mul_comm]
  have key : ∀ l : List Int, (∀ v ∈ l, cShl v 1 = .ok (2 * v)) → l.mapM (cShl · 1) = .ok (l.map (2 * ·)) := by
    intro l
    induction l with
    | nil => intro _; rfl
    | cons a l ih =>
      intro h
      rw [List.mapM_cons, h a (by simp), ih (fun b hb => h b (by simp [hb]))]
      rfl
  rw [key _ hm]
  refine congrArg Except.ok (List.ext_getElem? fun c => ?_)
  rw [List.getElem?_map]
  by_cases hc : c < pre cells nfile
  · rw [flagTab_get _ _ hc, List.getElem?_eq_getElem (by omega)]
    unfold fileAt
    rw [List.getD_eq_getElem?_getD, List.getElem?_eq_getElem (by omega)]
    simp
  · rw [List.getElem?_eq_none (by omega), List.getElem?_eq_none (by simp [flagTab]; omega)]
    rfl

theorem unshift_ok (P : Nat → Bool) : (flagTab (pre cells nfile) (fileAt n cells start nfile) P).map (· / 2) = (wholeTable n cells start nfile).filetable := by
  have hl := whole_file_length (n := n) (cells := cells) (start := start) nfile
  refine List.ext_getElem? fun c => ?_
  rw [List.getElem?_map]
  by_cases hc : c < pre cells nfile
  · rw [flagTab_get _ _ hc, List.getElem?_eq_getElem (by omega)]
    unfold fileAt
    rw [List.getD_eq_getElem?_getD, List.getElem?_eq_getElem (by omega)]
    simp only [Option.map_some, Option.getD_some]
    refine congrArg some ?_
    split_ifs <;> omega
  · rw [List.getElem?_eq_none (l := (wholeTable n cells start nfile).filetable) (by omega), List.getElem?_eq_none (by simp [flagTab]; omega)]
    rfl

/-- File `f` of the snapshot can be read. -/
def FileOk (sys : Bool) (fs : ByteFS) (dir base : Name) (num : Nat) (Cs : Nat → Content) (n cells : Nat → Nat) (f : Nat) : Prop :=
  ∃ rest, openBuf fs (snapName dir base num f) = .ok ⟨snapshotBytes (Cs f) (n f) (cells f) (!sys) rest, 0⟩

theorem cell_ok (S : Snapshot Cs n cells start nfile) {c : Nat} (hc : c < pre cells nfile) :
    cellLenIn (wholeTable n cells start nfile) (fileAt n cells start nfile c) c = .ok ((cellAt Cs n cells start nfile c).length : Int) ∧
    ∃ f, f < nfile ∧ fileAt n cells start nfile c = (f : Int) ∧ (FileOk sys fs dir base num Cs n cells f →
      readPos sys fs dir base num (wholeTable n cells start nfile) (fileAt n cells start nfile c) c = .ok (coords (cellAt Cs n cells start nfile c), (Cs f "Header/BoxSize".toList).headD []) ∧
      readIds sys fs dir base num (wholeTable n cells start nfile) (fileAt n cells start nfile c) c = .ok ((cellAt Cs n cells start nfile c).map (fun p => leNat p.id))) := by
  obtain ⟨f, j, hf, hj, e, h1, h2⟩ := cell_split (Cs := Cs) (n := n) (start := start) hc
  rw [h1, h2, e]
  exact ⟨cellLenIn_ok S hf hj, f, hf, rfl, fun ho => ⟨readPos_ok S hf hj ho, readIds_ok S hf hj ho⟩⟩

theorem FileOk.of (hs : SnapStored sys fs dir base num Cs n cells nfile) {f : Nat} (hf : f < nfile) : FileOk sys fs dir base num Cs n cells f := open_snap hs hf

variable {ids : List Nat} {val4 val8 : List Byte → Rat} {qsort : List Nat → List Nat} {box box0 : Rat} {pos : List Vec}

/-- What is read from the snapshot -/
theorem loops_ok (S : Snapshot Cs n cells start nfile) (hs : SnapStored sys fs dir base num Cs n cells nfile) {R : List Particle} (hR : R = region Cs n cells start nfile (cellFlags (pre cells nfile) ids))
    (hbox : ∀ f < nfile, val8 ((Cs f "Header/BoxSize".toList).headD []) = box) (hne : ∃ id ∈ ids, idCell id < pre cells nfile) :
    cellLoop (flagTab (pre cells nfile) (fileAt n cells start nfile) (fun c => decide (c ∈ ids.map idCell))) (pre cells nfile) (3 * R.length)
      (fun f key => do let r ← readPos sys fs dir base num (wholeTable n cells start nfile) f key; .ok r.1) = .ok (coords R) ∧
    (∃ boxes b, cellLoop (flagTab (pre cells nfile) (fileAt n cells start nfile) (fun c => decide (c ∈ ids.map idCell))) (pre cells nfile) (pre cells nfile)
      (fun f key => do let r ← readPos sys fs dir base num (wholeTable n cells start nfile) f key; .ok [r.2]) = .ok boxes ∧ boxes.getLast? = some b ∧ val8 b = box) ∧
    cellLoop (flagTab (pre cells nfile) (fileAt n cells start nfile) (fun c => decide (c ∈ ids.map idCell))) (pre cells nfile) R.length
      (readIds sys fs dir base num (wholeTable n cells start nfile)) = .ok (R.map (fun p => leNat p.id)) := by
  rw [region_flags] at hR
  have hcell : ∀ c < pre cells nfile, ∃ f, f < nfile ∧
      readPos sys fs dir base num (wholeTable n cells start nfile) (fileAt n cells start nfile c) c = .ok (coords (cellAt Cs n cells start nfile c), (Cs f "Header/BoxSize".toList).headD []) ∧
      readIds sys fs dir base num (wholeTable n cells start nfile) (fileAt n cells start nfile c) c = .ok ((cellAt Cs n cells start nfile c).map (fun p => leNat p.id)) := by
    intro c hc
    obtain ⟨_, f, hf, _, h⟩ := cell_ok (sys := sys) (fs := fs) (dir := dir) (base := base) (num := num) S hc
    exact ⟨f, hf, h (FileOk.of hs hf)⟩
  refine ⟨?_, ?_, ?_⟩
  · have h := cellLoop_ok (file := fileAt n cells start nfile) (P := fun c => decide (c ∈ ids.map idCell)) (size := pre cells nfile) (room := 3 * R.length)
      (g := fun c => coords (cellAt Cs n cells start nfile c)) (read := fun f key => do let r ← readPos sys fs dir base num (wholeTable n cells start nfile) f key; .ok r.1)
      (fun c hc _ => by
        obtain ⟨f, _, h, _⟩ := hcell c hc
        rw [bindOk _ h]) (by rw [coords_if, ← hR, length_coords])
    rw [h, coords_if, hR]
  · have hg : ∀ c, ∃ b : List Byte, c < pre cells nfile → (val8 b = box ∧ readPos sys fs dir base num (wholeTable n cells start nfile) (fileAt n cells start nfile c) c = .ok (coords (cellAt Cs n cells start nfile c), b)) := by
      intro c
      by_cases hc : c < pre cells nfile
      · obtain ⟨f, hf, h, _⟩ := hcell c hc
        exact ⟨_, fun _ => ⟨hbox f hf, h⟩⟩
      · exact ⟨[], fun h => absurd h hc⟩
    choose b hb using hg
    have hlen : ∀ m, ((List.range m).flatMap (fun c => if decide (c ∈ ids.map idCell) then [b c] else [])).length ≤ m := by
      intro m
      induction m with
      | zero => simp
      | succ m ih =>
        rw [List.range_succ, List.flatMap_append, List.length_append]
        simp only [List.flatMap_cons, List.flatMap_nil, List.append_nil]
        have : (if decide (m ∈ ids.map idCell) = true then [b m] else []).length ≤ 1 := by split <;> simp
        omega
    have h := cellLoop_ok (file := fileAt n cells start nfile) (P := fun c => decide (c ∈ ids.map idCell)) (size := pre cells nfile) (room := pre cells nfile)
      (g := fun c => [b c]) (read := fun f key => do let r ← readPos sys fs dir base num (wholeTable n cells start nfile) f key; .ok [r.2])
      (fun c hc _ => by
        rw [bindOk _ (hb c hc).2]) (hlen _)
    obtain ⟨id, hid, hidc⟩ := hne
    have hmem : b (idCell id) ∈ (List.range (pre cells nfile)).flatMap (fun c => if decide (c ∈ ids.map idCell) then [b c] else []) := by
      refine List.mem_flatMap.2 ⟨idCell id, List.mem_range.2 hidc, ?_⟩
      rw [if_pos (by simpa using ⟨id, hid, rfl⟩)]
      simp
    generalize hl : (List.range (pre cells nfile)).flatMap (fun c => if decide (c ∈ ids.map idCell) then [b c] else []) = l at h hmem
    have hne : l ≠ [] := List.ne_nil_of_mem hmem
    refine ⟨l, l.getLast hne, h, List.getLast?_eq_some_getLast hne, ?_⟩
    have hx := List.getLast_mem hne
    generalize l.getLast hne = x at hx
    rw [← hl] at hx
    obtain ⟨c, hc, hx⟩ := List.mem_flatMap.1 hx
    split at hx
    · rw [List.mem_singleton.1 hx]
      exact (hb c (List.mem_range.1 hc)).1
    · simp at hx
  · have h := cellLoop_ok (file := fileAt n cells start nfile) (P := fun c => decide (c ∈ ids.map idCell)) (size := pre cells nfile) (room := R.length)
      (g := fun c => (cellAt Cs n cells start nfile c).map (fun p => leNat p.id)) (read := readIds sys fs dir base num (wholeTable n cells start nfile))
      (fun c hc _ => by
        obtain ⟨f, _, _, h⟩ := hcell c hc
        exact h) (by rw [ids_if, ← hR, List.length_map])
    rw [h, ids_if, hR]

/-- The call up to the flags -/
theorem coords_start (S : Snapshot Cs n cells start nfile) (hn : nfile ≤ 2 ^ 30) {R : List Particle} (hR : R = region Cs n cells start nfile (cellFlags (pre cells nfile) ids))
    (hsize : R.length < 2 ^ 29) (hcells : ∀ id ∈ ids, idCell id < pre cells nfile) {g f len fuel : Nat} (hids : groupIds sys fs dir num f g len = .ok ids) :
    getGroupCoordinates sys fs dir base num val4 val8 qsort fuel (wholeTable n cells start nfile) (pre cells nfile) g f len box0 pos =
      afterMark (pre cells nfile) (flagTab (pre cells nfile) (fileAt n cells start nfile) (fun c => decide (c ∈ ids.map idCell)))
        (groupPositions sys fs dir base num val4 val8 qsort fuel (wholeTable n cells start nfile) (pre cells nfile)
          (flagTab (pre cells nfile) (fileAt n cells start nfile) (fun c => decide (c ∈ ids.map idCell))) R.length ids box0 pos) := by
  rw [region_flags] at hR
  have hl := whole_file_length (n := n) (cells := cells) (start := start) nfile
  have hlf : ∀ P, (flagTab (pre cells nfile) (fileAt n cells start nfile) P).length = pre cells nfile := by intro P; simp [flagTab]
  have hRl := length_if (fun c => decide (c ∈ ids.map idCell)) (cellAt Cs n cells start nfile) (pre cells nfile)
  rw [← hR] at hRl
  have hmark := markLoop_ok (t := wholeTable n cells start nfile) (size := pre cells nfile) (file := fileAt n cells start nfile) (len := fun c => (cellAt Cs n cells start nfile c).length)
    (fun c hc => (cell_ok (sys := sys) (fs := fs) (dir := dir) (base := base) (num := num) S hc).1) ids (fun _ => false) (fun c => decide (c ∈ ids.map idCell)) hcells (by intro c; simp) (by rw [← hRl]; omega)
  have h0 : ((List.range (pre cells nfile)).map (fun c => if (false = true) then (cellAt Cs n cells start nfile c).length else 0)).sum = 0 := by
    simp
  rw [h0, ← hRl, Nat.cast_zero] at hmark
  unfold getGroupCoordinates
  rw [hids]
  dsimp only
  rw [if_neg (by omega), shift_ok hn, List.drop_of_length_le (l := (wholeTable n cells start nfile).filetable) (by omega)]
  dsimp only
  rw [List.append_nil, hmark]

theorem afterMark_ok (P : Nat → Bool) (r : List Vec × Vec) :
    afterMark (pre cells nfile) (flagTab (pre cells nfile) (fileAt n cells start nfile) P) (.ok r) = ⟨.ok r, (wholeTable n cells start nfile).filetable⟩ := by
  have hlf : (flagTab (pre cells nfile) (fileAt n cells start nfile) P).length = pre cells nfile := by simp [flagTab]
  unfold afterMark
  dsimp only
  rw [List.take_of_length_le (by rw [hlf]), List.drop_of_length_le (by rw [hlf]), List.append_nil, unshift_ok]

end Verif.GroupLib
