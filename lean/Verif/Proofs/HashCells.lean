import Verif.Proofs.HashTab

set_option linter.unusedSectionVars false

namespace Verif.GroupLib

open CPeano ReadParticles ReadRegion

variable {Cs : Nat → Content} {n cells : Nat → Nat} {start : Nat → Nat → Nat} {nfile : Nat}

theorem whole_file_get {f j : Nat} (hf : f < nfile) (hj : j < cells f) : (wholeTable n cells start nfile).filetable[pre cells f + j]? = some (f : Int) := by
  have h := getElem?_gcat (P := nfile) (r := f) (i := j) (a := fun f => List.replicate (cells f) (f : Int)) hf (by simpa using hj)
  rw [pre_congr (g := cells) (by intro i _; simp [sizes])] at h
  exact h.trans (by rw [List.getElem?_replicate, if_pos hj])

theorem whole_hash_get {f j : Nat} (hf : f < nfile) (hj : j < cells f) : (wholeTable n cells start nfile).hashtable[pre cells f + j]? = some (start f j : Int) := by
  have h := getElem?_gcat (P := nfile) (r := f) (i := j) (a := fun f => (List.range (cells f)).map fun j => (start f j : Int)) hf (by simpa using hj)
  rw [pre_congr (g := cells) (by intro i _; simp [sizes])] at h
  exact h.trans (by rw [List.getElem?_map, List.getElem?_range hj]; rfl)

theorem whole_last_get {f : Nat} (hf : f < nfile) : (wholeTable n cells start nfile).lastcell[f]? = some ((pre cells f : Int) + cells f - 1) := by
  unfold wholeTable; dsimp only; rw [List.getElem?_map, List.getElem?_range hf]; rfl

theorem whole_n_get {f : Nat} (hf : f < nfile) : (wholeTable n cells start nfile).ninfile[f]? = some (n f : Int) := by
  unfold wholeTable; dsimp only; rw [List.getElem?_map, List.getElem?_range hf]; rfl

theorem allCells_get {f j : Nat} (hf : f < nfile) (hj : j < cells f) : (allCells Cs n cells start nfile)[pre cells f + j]? = some (cellParticles Cs n cells start f j) := by
  have h := getElem?_gcat (P := nfile) (r := f) (i := j) (a := fun f => (List.range (cells f)).map fun j => cellParticles Cs n cells start f j) hf (by simpa using hj)
  rw [pre_congr (g := cells) (by intro i _; simp [sizes])] at h
  exact h.trans (by rw [List.getElem?_map, List.getElem?_range hj]; rfl)

theorem length_allCells : (allCells Cs n cells start nfile).length = pre cells nfile := by
  have := length_gcat nfile (fun f => (List.range (cells f)).map fun j => cellParticles Cs n cells start f j)
  exact this.trans (pre_congr (by intro i _; simp [sizes]))

theorem cellLenIn_ok (S : Snapshot Cs n cells start nfile) {f j : Nat} (hf : f < nfile) (hj : j < cells f) :
    cellLenIn (wholeTable n cells start nfile) f ((pre cells f + j : Nat) : Int) = .ok ((cellParticles Cs n cells start f j).length : Int) := by
  have hs := S.size f hf
  have h0 := S.bound f hf j hj
  unfold cellLenIn
  rw [bindOk _ (cGet_ok (whole_last_get hf)), bindOk _ (cGet_ok (whole_hash_get hf hj))]
  unfold cellParticles
  rw [List.length_map, List.length_range']
  by_cases hl : j + 1 < cells f
  · have h1 := S.bound f hf (j + 1) hl
    have h2 := S.order f hf j hl
    have hn : cGet (wholeTable n cells start nfile).hashtable (((pre cells f + j : Nat) : Int) + 1) = .ok (start f (j + 1) : Int) := by
      have := cGet_ok (whole_hash_get (n := n) (start := start) hf hl)
      rw [← this]
      congr 1
    rw [if_pos (by omega), if_pos hl, bindOk _ hn, cInt_ok (by omega) (by omega)]
    refine congrArg Except.ok ?_
    omega
  · rw [if_neg (by omega), if_neg hl, bindOk _ (cGet_ok (whole_n_get hf)), cInt_ok (by omega) (by omega)]
    refine congrArg Except.ok ?_
    omega

theorem cellLen_ok (S : Snapshot Cs n cells start nfile) {f j : Nat} (hf : f < nfile) (hj : j < cells f) :
    cellLen (wholeTable n cells start nfile) ((pre cells f + j : Nat) : Int) = .ok ((cellParticles Cs n cells start f j).length : Int) := by
  unfold cellLen
  rw [bindOk _ (cGet_ok (whole_file_get hf hj))]
  exact cellLenIn_ok S hf hj

/-- The same, for the number of the cell -/
theorem cellLen_cell (S : Snapshot Cs n cells start nfile) {c : Nat} (hc : c < pre cells nfile) :
    ∃ ps, (allCells Cs n cells start nfile)[c]? = some ps ∧ cellLen (wholeTable n cells start nfile) (c : Int) = .ok (ps.length : Int) := by
  obtain ⟨f, hf, h1, h2⟩ := exists_block hc
  obtain ⟨j, rfl⟩ : ∃ j, c = pre cells f + j := ⟨c - pre cells f, by omega⟩
  exact ⟨_, allCells_get hf (by omega), cellLen_ok S hf (by omega)⟩

theorem cubeSum_ok (S : Snapshot Cs n cells start nfile) (first : Nat) : ∀ k, first + k ≤ pre cells nfile →
    ((slice (allCells Cs n cells start nfile) first k).flatten.length : Int) < 2147483648 →
    cubeSum (wholeTable n cells start nfile) first (first + k) = .ok ((slice (allCells Cs n cells start nfile) first k).flatten.length : Int) := by
  intro k
  induction k with
  | zero => intro _ _; simp [cubeSum, slice]; rfl
  | succ k ih =>
    intro hk hb
    obtain ⟨ps, hp, hc⟩ := cellLen_cell S (show first + k < pre cells nfile by omega)
    have e : slice (allCells Cs n cells start nfile) first (k + 1) = slice (allCells Cs n cells start nfile) first k ++ [ps] := by
      unfold slice
      rw [List.take_succ, List.getElem?_drop, hp]
      rfl
    rw [e] at hb ⊢
    simp only [List.flatten_append, List.flatten_cons, List.flatten_nil, List.append_nil, List.length_append] at hb ⊢
    have ih' := ih (by omega) (by omega)
    unfold cubeSum at ih' ⊢
    rw [Nat.add_sub_cancel_left] at ih'
    rw [show first + (k + 1) - first = k + 1 by omega, List.range'_concat, List.foldlM_append, bindOk _ ih']
    simp only [List.foldlM_cons, List.foldlM_nil, Nat.one_mul]
    rw [bindOk _ hc, bindOk _ (cInt_ok (by omega) (by omega))]
    push_cast
    rfl

theorem cubes_ok (S : Snapshot Cs n cells start nfile) {nf : Nat} {tab : List Int} (ht : nf ≤ tab.length)
    (hb : ∀ p < nf, ((slice (allCells Cs n cells start nfile) (p * (pre cells nfile / nf)) (pre cells nfile / nf)).flatten.length : Int) < 2147483648) :
    getParticlesInCubes (wholeTable n cells start nfile) (pre cells nfile) nf tab =
      .ok ((List.range nf).map (fun p => ((slice (allCells Cs n cells start nfile) (p * (pre cells nfile / nf)) (pre cells nfile / nf)).flatten.length : Int)) ++ tab.drop nf) := by
  generalize hq : pre cells nfile / nf = q at hb ⊢
  have hqn : nf * q ≤ pre cells nfile := by rw [← hq]; exact Nat.mul_div_le _ _
  have key : ∀ m ≤ nf, (List.range m).foldlM (fun tab proc => do
      let s ← cubeSum (wholeTable n cells start nfile) (proc * q) ((proc + 1) * q)
      if tab.length ≤ proc then .error .other else .ok (tab.set proc s)) tab =
      (.ok (overlay tab 0 ((List.range m).map (fun p => ((slice (allCells Cs n cells start nfile) (p * q) q).flatten.length : Int)))) : Except Err (List Int)) := by
    intro m
    induction m with
    | zero => intro _; simp [overlay]; rfl
    | succ m ih =>
      intro hm
      have hmq : m * q + q ≤ pre cells nfile := by
        have := Nat.mul_le_mul_right q hm
        rw [Nat.succ_mul] at this
        omega
      have hs := cubeSum_ok S (m * q) q hmq (hb m (by omega))
      rw [List.range_succ, List.foldlM_append, bindOk _ (ih (by omega))]
      simp only [List.foldlM_cons, List.foldlM_nil]
      rw [show (m + 1) * q = m * q + q by ring, bindOk _ hs]
      have hl := length_overlay (buf := tab) (o := 0) (xs := (List.range m).map (fun p => ((slice (allCells Cs n cells start nfile) (p * q) q).flatten.length : Int))) (by simp; omega)
      rw [hl, if_neg (by omega), overlay_set (by simp; omega) (by simp), List.map_append]
      rfl
  unfold getParticlesInCubes
  rw [hq, key nf (le_refl _)]
  unfold overlay
  simp

end Verif.GroupLib
