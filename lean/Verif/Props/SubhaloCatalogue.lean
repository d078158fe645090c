import Verif.Model.SubhaloCatalogue
import Verif.Spec.SubhaloCatalogue
import Verif.Props.SimWrappers
import Verif.Props.SnapshotPaths

/-! C131: the program which prints all subhaloes of a snapshot -/

namespace Verif.SubhaloCatalogue

open SnapshotPaths

theorem fileName_eq (n k : Nat) : fileName n k = nameOf n k := by
  unfold fileName nameOf
  rw [pctZero_nat, pctD_nat]

theorem pctD_eq (v : Int) : pctD v = intText v := by
  cases v with
  | ofNat n => exact pctD_nat n
  | negSucc n =>
    unfold pctD sign intText
    rw [if_pos (Int.negSucc_lt_zero n), show (Int.negSucc n).natAbs = n + 1 from rfl, decimal_eq]
    show ['-'] ++ (toString (n + 1)).toList = ("-" ++ toString (n + 1)).toList
    rw [String.toList_append]
    rfl

theorem printLoop_ok {get : Nat → Except Err Name} {want : Nat → Name} : ∀ {is : List Nat}, (∀ i ∈ is, get i = .ok (want i)) → printLoop get is = (is.map want, none)
  | [], _ => rfl
  | i :: is, h => by
    unfold printLoop
    rw [h i (by simp)]
    simp only [printLoop_ok (is := is) (fun j hj => h j (by simp [hj])), List.map_cons]

theorem accepts (name : String) : idBytesClass.sig.Accepts ⟨[.str name], []⟩ where
  pos := Or.inl (by show 1 ≤ 2; decide)
  known := fun _ h => by cases h
  once := List.nodup_nil
  free := fun _ h => by cases h
  given := by
    intro i n h
    match i, h with
    | 0, h => exact Or.inl (by show 0 < 1; decide)
    | 1, h => cases h

theorem gives (name : String) : idBytesClass.sig.Gives ⟨[.str name], []⟩ "id_bytes" (.int 8) :=
  Or.inr (Or.inr ⟨(by show "id_bytes" ∉ (idBytesClass.sig.params.map (·.1)).take 1; decide), by simp, (by show ("id_bytes", some (PyVal.int 8)) ∈ idBytesClass.sig.params; decide)⟩)

theorem take3 {l : List (List Byte)} {j : Nat} {n : Nat} (hl : l.length = 3 * n) (hj : j < n) :
    ∃ x y z, elem3 l j 0 = .ok x ∧ elem3 l j 1 = .ok y ∧ elem3 l j 2 = .ok z ∧ (l.drop (3 * j)).take 3 = [x, y, z] := by
  refine ⟨l[3 * j]'(by omega), l[3 * j + 1]'(by omega), l[3 * j + 2]'(by omega), ?_, ?_, ?_, ?_⟩
  · unfold elem3 elem; rw [if_neg (by omega), Nat.add_zero, List.getElem?_eq_getElem (by omega)]
  · unfold elem3 elem; rw [if_neg (by omega), List.getElem?_eq_getElem (by omega)]
  · unfold elem3 elem; rw [if_neg (by omega), List.getElem?_eq_getElem (by omega)]
  · refine List.ext_getElem (by simp; omega) (fun i h1 h2 => ?_)
    simp only [List.length_cons, List.length_nil] at h2
    rw [List.getElem_take, List.getElem_drop]
    match i, h2 with
    | 0, _ => rfl
    | 1, _ => rfl
    | 2, _ => rfl

/-- The rows which are used -/
theorem rows_used {ng ns : Nat} {P : Row → Prop} (h : ∀ sec ∈ Files.lgadget2SubTab 8 ng ns, ∀ r ∈ sec.rows, P r) :
    P (Files.one 4 "Nsubhalos") ∧ P (Files.col 4 ns "SubParentHalo") ∧ P (Files.col 4 ns "SubLen") ∧ P (Files.vec 4 ns 3 "SubPos") ∧ P (Files.vec 4 ns 3 "SubVel") := by
  unfold Files.lgadget2SubTab at h
  have h1 := h _ (List.mem_cons_self ..)
  have h2 := h _ (List.mem_cons_of_mem _ (List.mem_cons_self ..))
  exact ⟨h1 _ (by simp), h2 _ (by simp), h2 _ (by simp), h2 _ (by simp), h2 _ (by simp)⟩

theorem commas (c a b x y z u v w : Name) : List.intercalate c [a, b, x, y, z, u, v, w] = a ++ c ++ b ++ c ++ x ++ c ++ y ++ c ++ z ++ c ++ u ++ c ++ v ++ c ++ w := by
  simp [List.intercalate, List.intersperse]

theorem line_text (f14 : List Byte → Name) {a b p v : List (List Byte)} {n j : Nat} (ha : a.length = n) (hb : b.length = n) (hp : p.length = 3 * n) (hv : v.length = 3 * n) (hj : j < n) :
    line f14 a b p v j = .ok (List.intercalate ", ".toList ([intText (int32Value (a.getD j [])), intText (int32Value (b.getD j []))] ++ (((p.drop (3 * j)).take 3) ++ ((v.drop (3 * j)).take 3)).map f14)) := by
  obtain ⟨x, y, z, e1, e2, e3, e4⟩ := take3 hp hj
  obtain ⟨u, q, w, e5, e6, e7, e8⟩ := take3 hv hj
  have e9 : elem a j = .ok (a.getD j []) := by
    unfold elem; rw [List.getElem?_eq_getElem (by omega), List.getD_eq_getElem _ _ (by omega)]
  have e10 : elem b j = .ok (b.getD j []) := by
    unfold elem; rw [List.getElem?_eq_getElem (by omega), List.getD_eq_getElem _ _ (by omega)]
  unfold line
  simp only [bind, Except.bind, e1, e2, e3, e5, e6, e7, e9, e10, e4, e8, pctD_eq, List.cons_append, List.nil_append, List.map_cons, List.map_nil, commas]

theorem line_eq (f14 : List Byte → Name) {t : SubFile} (h : t.Good) {j : Nat} (hj : j < t.ns) :
    line f14 (t.C "SubParentHalo".toList) (t.C "SubLen".toList) (t.C "SubPos".toList) (t.C "SubVel".toList) j = .ok (t.line f14 j) := by
  obtain ⟨-, h1, h2, h3, h4⟩ := rows_used h.fits.rows
  have e1 : ∀ n, (Files.col 4 t.ns n).shape.prod = t.ns := fun n => by simp [Files.col]
  have e2 : ∀ n, (Files.vec 4 t.ns 3 n).shape.prod = 3 * t.ns := fun n => by simp [Files.vec]; omega
  exact line_text f14 (h1.1.trans (e1 _)) (h2.1.trans (e1 _)) (h3.1.trans (e2 _)) (h4.1.trans (e2 _)) hj

theorem oneFile_good (s : Bool) (f14 : List Byte → Name) {fs : Name → Option (List Byte)} {n k : Nat} {t : SubFile} (h : t.Good) (hf : fs (nameOf n k) = some t.bytes) :
    oneFile s f14 fs n k = (t.lines f14, none) := by
  obtain ⟨f, h1, h2, -, -⟩ := C92_millennium_sub_tab t.C 8 t.ng t.ns (Or.inr rfl) h.groups h.subs h.files h.fits (accepts (String.ofList (nameOf n k))) (gives _) s t.big t.rest
  obtain ⟨⟨hn, -⟩, ⟨hp, -⟩, ⟨hl, -⟩, ⟨hx, -⟩, hv, -⟩ := rows_used h2
  have ho : openSubTab s fs (fileName n k) = .ok (t.bytes, f) := by
    unfold openSubTab
    rw [fileName_eq, hf]
    simp only
    unfold SubFile.bytes
    rw [h1]
  have hr : readArrays s t.bytes f = .ok ((t.ns : Int), t.C "SubParentHalo".toList, t.C "SubLen".toList, t.C "SubPos".toList, t.C "SubVel".toList) := by
    unfold readArrays SubFile.bytes BFile.int
    have e0 : (Files.one 4 "Nsubhalos").name = "Nsubhalos".toList := rfl
    have e1 : ∀ n, (Files.col 4 t.ns n).name = n.toList := fun n => rfl
    have e2 : ∀ n, (Files.vec 4 t.ns 3 n).name = n.toList := fun n => rfl
    rw [e0] at hn
    rw [e1] at hp hl
    rw [e2] at hx hv
    simp only [bind, Except.bind, hn, hp, hl, hx, hv]
    rw [← h.subs]
    rfl
  unfold oneFile
  rw [ho]
  simp only [hr, Int.toNat_natCast]
  rw [printLoop_ok (want := t.line f14)]
  · rfl
  · intro i hi
    exact line_eq f14 h (List.mem_range.mp hi)

theorem fileLoop_append {file : Nat → List Name × Option Err} {out : Nat → List Name} : ∀ {ks : List Nat} (more : List Nat), (∀ k ∈ ks, file k = (out k, none)) →
    fileLoop file (ks ++ more) = (ks.flatMap out ++ (fileLoop file more).1, (fileLoop file more).2)
  | [], _, _ => by simp
  | k :: ks, more, h => by
    rw [List.cons_append]
    conv => lhs; unfold fileLoop
    rw [h k (by simp)]
    simp only [fileLoop_append (ks := ks) more (fun j hj => h j (by simp [hj])), List.flatMap_cons, List.append_assoc]

def title : Name := "Parent halo, Number of particles, x, y, z, vx, vy, vz".toList

/-- C131: if all files are there, in either byte order, the program prints a title and the lines for all subhaloes of all files, in this order, and ends without an error. -/
theorem C131_lines (s : Bool) (f14 : List Byte → Name) {fs : Name → Option (List Byte)} {n nfiles : Nat} {T : Nat → SubFile} (h : ∀ k < nfiles, (T k).Good) (hf : ∀ k < nfiles, fs (nameOf n k) = some (T k).bytes) :
    program s f14 fs n nfiles = (title :: (List.range nfiles).flatMap (fun k => (T k).lines f14), none) := by
  unfold program
  have := fileLoop_append (file := fun k => oneFile s f14 fs n k) (out := fun k => (T k).lines f14) (ks := List.range nfiles) [] (fun k hk => oneFile_good s f14 (h k (List.mem_range.mp hk)) (hf k (List.mem_range.mp hk)))
  rw [List.append_nil] at this
  simp only [this, fileLoop, List.append_nil]
  rfl

/-- C131: there is one line for each subhalo, and that for subhalo `j` of file `k` is found after the lines for the files before. -/
theorem C131_place (f14 : List Byte → Name) (T : Nat → SubFile) (nfiles : Nat) :
    ((List.range nfiles).flatMap (fun k => (T k).lines f14)).length = ((List.range nfiles).map (fun k => (T k).ns)).sum ∧
      ∀ k < nfiles, ∀ j < (T k).ns, ((List.range nfiles).flatMap (fun k => (T k).lines f14))[((List.range k).map (fun i => (T i).ns)).sum + j]? = some ((T k).line f14 j) := by
  have hlen : ∀ m, ((List.range m).flatMap (fun k => (T k).lines f14)).length = ((List.range m).map (fun k => (T k).ns)).sum := by
    intro m
    rw [List.length_flatMap]
    congr 1
    refine List.map_congr_left (fun k _ => ?_)
    simp [SubFile.lines]
  refine ⟨hlen nfiles, fun k hk j hj => ?_⟩
  obtain ⟨d, rfl⟩ : ∃ d, nfiles = k + (d + 1) := ⟨nfiles - k - 1, by omega⟩
  rw [List.range_add, List.flatMap_append, List.getElem?_append_right (by rw [hlen]; omega), hlen, Nat.add_sub_cancel_left, List.range_succ_eq_map]
  simp only [List.map_cons, Nat.add_zero, List.flatMap_cons]
  rw [List.getElem?_append_left (by simpa [SubFile.lines] using hj)]
  simp [SubFile.lines, hj]

/-- C131: if a file is missing, lines for all files before it are printed, and the program stops with an error. -/
theorem C131_missing (s : Bool) (f14 : List Byte → Name) {fs : Name → Option (List Byte)} {n nfiles : Nat} {T : Nat → SubFile} {m : Nat} (hm : m < nfiles) (h : ∀ k < m, (T k).Good)
    (hf : ∀ k < m, fs (nameOf n k) = some (T k).bytes) (h0 : fs (nameOf n m) = none) :
    program s f14 fs n nfiles = (title :: (List.range m).flatMap (fun k => (T k).lines f14), some .ioError) := by
  obtain ⟨d, rfl⟩ : ∃ d, nfiles = m + (d + 1) := ⟨nfiles - m - 1, by omega⟩
  unfold program
  rw [List.range_add, List.range_succ_eq_map]
  have := fileLoop_append (file := fun k => oneFile s f14 fs n k) (out := fun k => (T k).lines f14) (ks := List.range m) (List.map (fun x => m + x) (0 :: List.map Nat.succ (List.range d)))
    (fun k hk => oneFile_good s f14 (h k (List.mem_range.mp hk)) (hf k (List.mem_range.mp hk)))
  have hs : oneFile s f14 fs n m = ([], some .ioError) := by
    unfold oneFile openSubTab
    rw [fileName_eq, h0]
  simp only [this]
  simp only [List.map_cons, Nat.add_zero, fileLoop, hs, List.append_nil]
  rfl

/-! ### An example -/

namespace ExCatalogue

def tabs : Nat → SubFile
  | 0 => ⟨2, 3, exSubTab, true, []⟩
  | _ => ⟨2, 3, exSubTab, false, [1, 2]⟩

theorem good (k : Nat) : (tabs k).Good := by
  have : (⟨2, 3, exSubTab, true, []⟩ : SubFile).Good :=
    ⟨by decide +kernel, by decide +kernel, by constructor <;> decide +kernel, Layout.fits_of _ _ (by decide +kernel)⟩
  cases k with
  | zero => exact this
  | succ k => exact ⟨this.groups, this.subs, this.files, this.fits⟩

def fs : Name → Option (List Byte) := fun p =>
  if p = "/virgo/data/Millennium/postproc_063/sub_tab_063.0".toList then some (tabs 0).bytes
  else if p = "/virgo/data/Millennium/postproc_063/sub_tab_063.1".toList then some (tabs 1).bytes else none

def hex (v : List Byte) : Name := intText (int32Value v)

theorem names : nameOf 63 0 = "/virgo/data/Millennium/postproc_063/sub_tab_063.0".toList ∧ nameOf 63 1 = "/virgo/data/Millennium/postproc_063/sub_tab_063.1".toList ∧
    nameOf 63 2 = "/virgo/data/Millennium/postproc_063/sub_tab_063.2".toList := by
  decide +kernel

theorem found : ∀ k < 2, fs (nameOf 63 k) = some (tabs k).bytes := by
  intro k hk
  match k, hk with
  | 0, _ => rw [names.1]; rfl
  | 1, _ => rw [names.2.1]; unfold fs; rw [if_neg (by decide), if_pos rfl]

/-- Two files with three subhaloes each -/
example : program false hex fs (63 : Nat) 2 = (title :: (List.range 2).flatMap (fun k => (tabs k).lines hex), none) := C131_lines false hex (fun k _ => good k) found

/-- The third one is missing. -/
example : program false hex fs (63 : Nat) 3 = (title :: (List.range 2).flatMap (fun k => (tabs k).lines hex), some .ioError) :=
  C131_missing false hex (by decide) (fun k _ => good k) found (by rw [names.2.2]; unfold fs; rw [if_neg (by decide), if_neg (by decide)])

example : (tabs 0).line hex 1 = "13008, 6008, 6022, 6029, 6036, 6022, 6029, 6036".toList := by decide +kernel

example : ((List.range 2).flatMap (fun k => (tabs k).lines hex))[4]? = some ((tabs 1).line hex 1) := (C131_place hex tabs 2).2 1 (by decide) 1 (by decide)

end ExCatalogue

end Verif.SubhaloCatalogue
