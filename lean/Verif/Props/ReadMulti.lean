import Verif.Model.ReadMulti

/-!
C43: `read_multi`.
-/

set_option linter.unusedSectionVars false

namespace Verif

variable {ν α ι : Type*} [DecidableEq ν]

theorem RmDict.get_set (d : RmDict ν α) (n m : ν) (v : RmEntry α) : (d.set n v).get m = if n = m then some v else d.get m := by
  induction d with
  | nil =>
    by_cases h : n = m <;> simp [RmDict.set, RmDict.get, h]
  | cons e d ih =>
    obtain ⟨k, w⟩ := e
    unfold RmDict.set
    by_cases hk : k = n
    · subst hk
      rw [if_pos rfl]
      by_cases h : k = m <;> simp [RmDict.get, h]
    · rw [if_neg hk]
      by_cases hm : k = m
      · subst hm
        rw [if_neg (fun h => hk h.symm)]
        simp [RmDict.get]
      · have : ∀ d' : RmDict ν α, RmDict.get ((k, w) :: d') m = RmDict.get d' m := by intro d'; simp [RmDict.get, hm]
        rw [this, this, ih]

theorem RmDict.keys_set (d : RmDict ν α) (n : ν) (v : RmEntry α) : (d.set n v).map Prod.fst = if n ∈ d.map Prod.fst then d.map Prod.fst else d.map Prod.fst ++ [n] := by
  induction d with
  | nil => simp [RmDict.set]
  | cons e d ih =>
    obtain ⟨k, w⟩ := e
    unfold RmDict.set
    by_cases hk : k = n
    · subst hk; simp
    · rw [if_neg hk, List.map_cons, ih]
      have hk' : n ≠ k := fun h => hk h.symm
      by_cases hm : n ∈ d.map Prod.fst
      · rw [if_pos hm, if_pos (by simp only [List.map_cons, List.mem_cons]; exact Or.inr hm)]; rfl
      · rw [if_neg hm, if_neg (by simp only [List.map_cons, List.mem_cons, not_or]; exact ⟨hk', hm⟩)]; rfl

/-- The arrays found for a dataset, in the order of the files -/
def found (openFile : ι → Except Err (ν → Option α)) (idx : List ι) (name : ν) : List α := idx.filterMap (fun i => match openFile i with | .ok f => f name | .error _ => none)

theorem rmReadFile_get (f : ν → Option α) (datasets : List ν) (hd : datasets.Nodup) (d : RmDict ν α) (m : ν) (l : List α) (h : d.get m = some (.parts l)) :
    (rmReadFile f datasets d).get m = some (.parts (if m ∈ datasets then l ++ (f m).toList else l)) := by
  unfold rmReadFile
  induction datasets generalizing d l with
  | nil => simpa using h
  | cons n ds ih =>
    obtain ⟨hn, hds⟩ := List.nodup_cons.1 hd
    rw [List.foldl_cons]
    by_cases hnm : n = m
    · subst hnm
      have hstep : (rmAppend f d n).get n = some (.parts (l ++ (f n).toList)) := by
        unfold rmAppend
        rw [h]
        cases f n with
        | none => simpa using h
        | some a => simp [RmDict.get_set]
      rw [ih hds _ _ hstep]
      simp [hn]
    · have hstep : (rmAppend f d n).get m = some (.parts l) := by
        unfold rmAppend
        split
        · rw [RmDict.get_set, if_neg hnm]; exact h
        · exact h
      rw [ih hds _ l hstep]
      simp [Ne.symm hnm]

theorem rmReadFile_keys (f : ν → Option α) (datasets : List ν) (d : RmDict ν α) : (rmReadFile f datasets d).map Prod.fst = d.map Prod.fst := by
  unfold rmReadFile
  induction datasets generalizing d with
  | nil => rfl
  | cons n ds ih =>
    rw [List.foldl_cons, ih]
    unfold rmAppend
    split
    · rename_i a l _ hg
      rw [RmDict.keys_set, if_pos]
      unfold RmDict.get at hg
      rw [Option.map_eq_some_iff] at hg
      obtain ⟨e, he, _⟩ := hg
      have := List.find?_some he
      simp only [decide_eq_true_eq] at this
      exact this ▸ List.mem_map_of_mem (List.mem_of_find?_eq_some he)
    · rfl

theorem rmFiles_ok (openFile : ι → Except Err (ν → Option α)) (datasets : List ν) (hd : datasets.Nodup) (idx : List ι) (ho : ∀ i ∈ idx, ∃ f, openFile i = .ok f) (d : RmDict ν α)
    (l : ν → List α) (h : ∀ m ∈ datasets, d.get m = some (.parts (l m))) :
    ∃ d', rmFiles openFile datasets idx d = .ok d' ∧ d'.map Prod.fst = d.map Prod.fst ∧ ∀ m ∈ datasets, d'.get m = some (.parts (l m ++ found openFile idx m)) := by
  induction idx generalizing d l with
  | nil => exact ⟨d, rfl, rfl, fun m hm => by simp [found, h m hm]⟩
  | cons i idx ih =>
    obtain ⟨f, hf⟩ := ho i (by simp)
    obtain ⟨d', e1, e2, e3⟩ := ih (fun j hj => ho j (by simp [hj])) (rmReadFile f datasets d) (fun m => l m ++ (f m).toList) (fun m hm => by
      rw [rmReadFile_get f datasets hd d m (l m) (h m hm), if_pos hm])
    refine ⟨d', by rw [rmFiles, hf]; exact e1, by rw [e2, rmReadFile_keys], fun m hm => ?_⟩
    rw [e3 m hm, List.append_assoc]
    have : (f m).toList ++ found openFile idx m = found openFile (i :: idx) m := by
      unfold found
      rw [List.filterMap_cons, hf]
      cases hfm : f m <;> simp [hfm]
    rw [this]

theorem init_ok (datasets : List ν) (hd : datasets.Nodup) (d : RmDict ν α) (hdis : ∀ m ∈ datasets, m ∉ d.map Prod.fst) :
    (datasets.foldl (fun result name => RmDict.set result name (.parts [])) d).map Prod.fst = d.map Prod.fst ++ datasets ∧
      ∀ m, (datasets.foldl (fun result name => RmDict.set result name (.parts [])) d).get m = if m ∈ datasets then some (.parts []) else d.get m := by
  induction datasets generalizing d with
  | nil => simp
  | cons n ds ih =>
    obtain ⟨hn, hds⟩ := List.nodup_cons.1 hd
    have hk : (d.set n (.parts [])).map Prod.fst = d.map Prod.fst ++ [n] := by rw [RmDict.keys_set, if_neg (hdis n (by simp))]
    obtain ⟨i1, i2⟩ := ih hds (d.set n (.parts [])) (fun m hm => by
      rw [hk, List.mem_append, List.mem_singleton, not_or]
      exact ⟨hdis m (by simp [hm]), fun h => hn (h ▸ hm)⟩)
    rw [List.foldl_cons]
    refine ⟨by rw [i1, hk]; simp, fun m => ?_⟩
    rw [i2, RmDict.get_set]
    by_cases h1 : m ∈ ds
    · simp [h1]
    · by_cases h2 : n = m
      · simp [h2]
      · simp [h1, h2, Ne.symm h2]

theorem rmConcat_ok (concatenate : List α → Except Err α) (rows : α → Except Err α) (datasets : List ν) (hd : datasets.Nodup) (d : RmDict ν α) (l : ν → List α) (out : ν → α)
    (h : ∀ m ∈ datasets, d.get m = some (.parts (l m))) (hc : ∀ m ∈ datasets, concatenate (l m) = .ok (out m)) (hk : ∀ m ∈ datasets, m ∈ d.map Prod.fst) :
    ∃ d', rmConcat concatenate rows datasets d = .ok d' ∧ d'.map Prod.fst = d.map Prod.fst ∧ ∀ m, d'.get m = if m ∈ datasets then some (.array (out m)) else d.get m := by
  induction datasets generalizing d with
  | nil => exact ⟨d, rfl, rfl, fun m => by simp⟩
  | cons n ds ih =>
    obtain ⟨hn, hds⟩ := List.nodup_cons.1 hd
    have hkeys : (d.set n (.array (out n))).map Prod.fst = d.map Prod.fst := by rw [RmDict.keys_set, if_pos (hk n (by simp))]
    obtain ⟨d', e1, e2, e3⟩ := ih hds (d.set n (.array (out n))) (fun m hm => by
      have hne : n ≠ m := fun he => hn (he ▸ hm)
      rw [RmDict.get_set, if_neg hne]
      exact h m (by simp [hm])) (fun m hm => hc m (by simp [hm])) (fun m hm => by rw [hkeys]; exact hk m (by simp [hm]))
    refine ⟨d', ?_, by rw [e2, hkeys], fun m => ?_⟩
    · rw [rmConcat, h n (by simp)]
      simp only [hc n (by simp)]
      exact e1
    · rw [e3, RmDict.get_set]
      by_cases h1 : m ∈ ds
      · simp [h1]
      · by_cases h2 : n = m
        · subst h2; simp [h1]
        · simp [h1, h2, Ne.symm h2]

/-- The result has the datasets in the order asked for, each the concatenation in the order of `idx` of the arrays in those files which have it. -/
theorem C43_read_multi (concatenate : List α → Except Err α) (rows : α → Except Err α) (openFile : ι → Except Err (ν → Option α)) (idx : List ι) {datasets : List ν} (hd : datasets.Nodup)
    (ho : ∀ i ∈ idx, ∃ f, openFile i = .ok f) (out : ν → α) (hc : ∀ m ∈ datasets, concatenate (found openFile idx m) = .ok (out m)) :
    ∃ d, readMulti concatenate rows openFile idx datasets = .ok d ∧ d.map Prod.fst = datasets ∧ ∀ m ∈ datasets, d.get m = some (.array (out m)) := by
  obtain ⟨i1, i2⟩ := init_ok (α := α) datasets hd [] (by simp)
  obtain ⟨d1, e1, e2, e3⟩ := rmFiles_ok openFile datasets hd idx ho _ (fun _ => []) (fun m hm => by rw [i2, if_pos hm])
  obtain ⟨d2, f1, f2, f3⟩ := rmConcat_ok concatenate rows datasets hd d1 (fun m => found openFile idx m) out (fun m hm => by rw [e3 m hm, List.nil_append]) hc (fun m hm => by
    rw [e2, i1]; simpa using hm)
  refine ⟨d2, ?_, ?_, fun m hm => by rw [f3, if_pos hm]⟩
  · unfold readMulti
    simp only [e1]
    exact f1
  · rw [f2, e2, i1]; rfl

/-- Along the first axis: if the arrays found for each dataset agree in the other dimensions and there is at least one, the rows are those of the files one after the other. -/
theorem C43_rows {τ β : Type*} (rows : TypedArray τ β → Except Err (TypedArray τ β)) (openFile : ι → Except Err (ν → Option (TypedArray τ β))) (idx : List ι) {datasets : List ν}
    (hd : datasets.Nodup) (ho : ∀ i ∈ idx, ∃ f, openFile i = .ok f) (dims : ν → List Nat) (dtype : ν → τ)
    (hdims : ∀ m ∈ datasets, found openFile idx m ≠ [] ∧ ∀ a ∈ found openFile idx m, a.dims = dims m ∧ a.dtype = dtype m) :
    ∃ d, readMulti npConcatenate rows openFile idx datasets = .ok d ∧ d.map Prod.fst = datasets ∧
      ∀ m ∈ datasets, d.get m = some (.array ⟨dtype m, dims m, (found openFile idx m).flatMap TypedArray.rows⟩) := by
  apply C43_read_multi npConcatenate rows openFile idx hd ho (fun m => ⟨dtype m, dims m, (found openFile idx m).flatMap TypedArray.rows⟩)
  intro m hm
  obtain ⟨hne, hall⟩ := hdims m hm
  unfold npConcatenate concatParts
  cases hf : found openFile idx m with
  | nil => exact absurd hf hne
  | cons a rest =>
    rw [hf] at hall
    obtain ⟨h1, h2⟩ := hall a (by simp)
    have : rest.all (fun b => decide (b.dims = a.dims)) = true := by
      rw [List.all_eq_true]
      intro b hb
      simp [(hall b (by simp [hb])).1, h1]
    simp [this, ← h1, ← h2]

/-- A dataset which is in none of the files, or no files at all, is a `ValueError` and not an empty array. -/
theorem C43_nowhere {τ β : Type*} (rows : TypedArray τ β → Except Err (TypedArray τ β)) (openFile : ι → Except Err (ν → Option (TypedArray τ β))) (idx : List ι) (name : ν)
    (ho : ∀ i ∈ idx, ∃ f, openFile i = .ok f) (hn : found openFile idx name = []) : readMulti npConcatenate rows openFile idx [name] = .error .valueError := by
  obtain ⟨d1, e1, e2, e3⟩ := rmFiles_ok openFile [name] (by simp) idx ho [(name, .parts [])] (fun _ => []) (fun m hm => by
    rw [List.mem_singleton.1 hm]; simp [RmDict.get])
  have hg := e3 name (by simp)
  rw [hn] at hg
  unfold readMulti
  simp only [List.foldl_cons, List.foldl_nil, RmDict.set, e1, rmConcat, hg]
  rfl

/-! ### Cases -/

/-- Three files with two datasets, the second file has only one of them. -/
def testFiles : Nat → Except Err (String → Option (TypedArray Unit Nat)) := fun i =>
  if i = 0 then .ok (fun n => if n = "a" then some ⟨(), [], [1, 2]⟩ else if n = "b" then some ⟨(), [], [10]⟩ else none)
  else if i = 1 then .ok (fun n => if n = "a" then some ⟨(), [], [3]⟩ else none)
  else if i = 2 then .ok (fun n => if n = "a" then some ⟨(), [], []⟩ else if n = "b" then some ⟨(), [], [20, 30]⟩ else none)
  else .error .ioError

/-- `np.concatenate` of the elements of a one-dimensional array: they have no dimensions to concatenate. -/
def testRows : TypedArray Unit Nat → Except Err (TypedArray Unit Nat) := fun _ => .error .valueError

example : readMulti npConcatenate testRows testFiles [2, 0, 1] ["b", "a"] = .ok [("b", .array ⟨(), [], [20, 30, 10]⟩), ("a", .array ⟨(), [], [1, 2, 3]⟩)] := by decide +kernel
example : found testFiles [2, 0, 1] "b" = [⟨(), [], [20, 30]⟩, ⟨(), [], [10]⟩] := by decide +kernel
example : readMulti npConcatenate testRows testFiles [1] ["b"] = .error .valueError := by decide +kernel
example : readMulti npConcatenate testRows testFiles [0, 3] ["a"] = .error .ioError := by decide +kernel

/-- A name asked for twice fails, since the array is concatenated a second time. -/
theorem C43_duplicate_name : readMulti npConcatenate testRows testFiles [0] ["a", "a"] = .error .valueError := by decide +kernel

end Verif
