import Verif.Spec.GroupLib
import Verif.Proofs.ReadRegion
import Verif.Proofs.Formats

set_option linter.unusedSectionVars false

namespace Verif.GroupLib

open CPeano ReadParticles ReadRegion

/-! ### Reading rows -/

theorem row_at (big : Bool) (C : Content) (before after : Layout) (rec : Bool) (rows1 rows2 : List Row) (r : Row) (rest : List Byte) :
    ∃ A B, Layout.bytes big C (before ++ ⟨rec, rows1 ++ r :: rows2⟩ :: after) ++ rest = A ++ (r.bytes big C ++ B) ∧
      A.length = (Layout.bytes big C before).length + (if rec then 4 else 0) + (rows1.flatMap (Row.bytes big C)).length := by
  cases rec
  · refine ⟨Layout.bytes big C before ++ rows1.flatMap (Row.bytes big C), rows2.flatMap (Row.bytes big C) ++ (Layout.bytes big C after ++ rest), ?_, by simp⟩
    simp [Layout.bytes, Section.bytes, Section.payload]
  · refine ⟨Layout.bytes big C before ++ markerBytes big (Section.payload big C ⟨true, rows1 ++ r :: rows2⟩).length ++ rows1.flatMap (Row.bytes big C),
      rows2.flatMap (Row.bytes big C) ++ (markerBytes big (Section.payload big C ⟨true, rows1 ++ r :: rows2⟩).length ++ (Layout.bytes big C after ++ rest)), ?_, ?_⟩
    · simp [Layout.bytes, Section.bytes, Section.payload]
    · simp only [List.length_append, length_marker, if_true]

theorem length_rows (big : Bool) {C : Content} {rows : List Row} (h : ∀ r ∈ rows, r.Fits C) :
    (rows.flatMap (Row.bytes big C)).length = (rows.map (fun r => r.width * r.shape.prod)).sum :=
  length_payload big (s := ⟨false, rows⟩) h

/-- The bytes `file` have the row `r` at `p`. -/
def At (big : Bool) (C : Content) (file : List Byte) (p : Nat) (r : Row) : Prop :=
  r.Fits C ∧ ∃ A B, file = A ++ (r.bytes big C ++ B) ∧ A.length = p

theorem at_row {big : Bool} {C : Content} {L before after : Layout} {rec : Bool} {rows1 rows2 : List Row} {r : Row} (hL : L = before ++ ⟨rec, rows1 ++ r :: rows2⟩ :: after)
    (hf : ∀ sec ∈ L, ∀ r ∈ sec.rows, r.Fits C) (rest : List Byte) {p : Nat}
    (hp : (Layout.bytes big C before).length + (if rec then 4 else 0) + (rows1.map (fun r => r.width * r.shape.prod)).sum = p) :
    At big C (L.bytes big C ++ rest) p r := by
  have hm : (⟨rec, rows1 ++ r :: rows2⟩ : Section) ∈ L := by rw [hL]; simp
  obtain ⟨A, B, h1, h2⟩ := row_at big C before after rec rows1 rows2 r rest
  refine ⟨hf _ hm r (by simp), A, B, by rw [hL]; exact h1, ?_⟩
  rw [h2, length_rows big (fun r' hr' => hf _ hm r' (by simp [hr'])), hp]

variable {big : Bool} {C : Content} {file : List Byte} {p : Nat} {r : Row}

theorem At.fread (h : At big C file p r) {i k : Nat} (hk : i + k ≤ r.shape.prod) {q : Nat} (hq : q = p + r.width * i) :
    fread file (q : Int) r.width k = .ok ((List.range k).map (fun t => storeItem big r.order ((C r.name).getD (i + t) []))) := by
  obtain ⟨hr, A, B, h1, h2⟩ := h
  rw [h1]
  exact fread_flat big r.order A B hr.2 (by rw [hr.1]; exact hk) (by rw [h2, hq])

theorem At.read (h : At big C file p r) {i k : Nat} (hk : i + k ≤ r.shape.prod) {q : Nat} (hq : q = p + r.width * i) :
    CFile.read ⟨file, q⟩ r.width k = .ok ((List.range k).map (fun t => storeItem big r.order ((C r.name).getD (i + t) [])), ⟨file, q + r.width * k⟩) := by
  unfold CFile.read
  dsimp only
  rw [h.fread hk hq]

theorem bne_self_beq (sys : Bool) : ((!sys) == sys) = false := by cases sys <;> rfl

theorem value4_native (sys : Bool) {v : List Byte} (h : v.length = 4) : value4 sys false (storeItem (!sys) true v) = v := by
  have := value4_store (!sys) sys h
  rwa [bne_self_beq] at this

theorem value8_native (sys : Bool) {v : List Byte} (h : v.length = 8) : value8 sys false (storeItem (!sys) true v) = v := by
  have := value8_store (!sys) sys h
  rwa [bne_self_beq] at this

theorem At.elem (h : At big C file p r) {i : Nat} (hi : i < r.shape.prod) : ((C r.name).getD i []).length = r.width :=
  getD_length h.1.2 (by rw [h.1.1]; exact hi)

theorem At.int {sys : Bool} (h : At (!sys) C file p r) (hw : r.width = 4) (ho : r.order = true) {i : Nat} (hi : i < r.shape.prod) {q : Nat} (hq : q = p + 4 * i) :
    CFile.int sys ⟨file, q⟩ = .ok (int32Value ((C r.name).getD i []), ⟨file, q + 4⟩) := by
  have hr := h.read (i := i) (k := 1) (by omega) (q := q) (by rw [hw]; exact hq)
  rw [hw, ho] at hr
  have hv := h.elem hi
  rw [hw] at hv
  unfold CFile.int
  rw [bindOk _ hr]
  simp only [List.range_one, List.map_cons, List.map_nil, List.headD_cons, Nat.add_zero, Nat.mul_one]
  rw [value4_native sys hv]

theorem At.scalar {sys : Bool} (h : At (!sys) C file p r) (hw : r.width = 4) (ho : r.order = true) (hs : r.shape = []) :
    CFile.int sys ⟨file, p⟩ = .ok (scalarInt C r.name, ⟨file, p + 4⟩) := by
  rw [h.int hw ho (i := 0) (by rw [hs]; simp) (by simp)]
  unfold scalarInt
  cases C r.name <;> rfl

theorem At.ints {sys : Bool} (h : At (!sys) C file p r) (hw : r.width = 4) (ho : r.order = true) {k : Int} (hk : k = r.shape.prod) :
    CFile.ints sys ⟨file, p⟩ k = .ok ((C r.name).map int32Value, ⟨file, p + 4 * r.shape.prod⟩) := by
  subst hk
  have hr := h.read (i := 0) (k := r.shape.prod) (by omega) (q := p) (by simp)
  rw [hw, ho] at hr
  unfold CFile.ints
  rw [if_neg (by omega), Int.toNat_natCast, bindOk _ hr, List.map_map]
  refine congrArg Except.ok (Prod.ext ?_ rfl)
  dsimp only
  apply List.ext_getElem?
  intro i
  rw [List.getElem?_map, List.getElem?_map]
  by_cases hi : i < r.shape.prod
  · rw [List.getElem?_range hi]
    have hv := h.elem hi
    rw [hw] at hv
    have hl : i < (C r.name).length := by rw [h.1.1]; exact hi
    simp only [Option.map_some, Function.comp_apply, Nat.zero_add]
    rw [value4_native sys hv, List.getD_eq_getElem?_getD, List.getElem?_eq_getElem hl]
    rfl
  · rw [List.getElem?_eq_none (by simpa using hi), List.getElem?_eq_none (by rw [h.1.1]; omega)]
    rfl

/-! ### Records -/

theorem marker_int (sys : Bool) {n : Nat} (hn : n < 2147483648) (A B : List Byte) {q : Nat} (hq : q = A.length) :
    CFile.int sys ⟨A ++ (markerBytes (!sys) n ++ B), q⟩ = .ok ((n : Int), ⟨A ++ (markerBytes (!sys) n ++ B), q + 4⟩) := by
  have hv : ∀ v ∈ [leBytes 4 n], v.length = 4 := by simp
  have := fread_flat (!sys) true A B hv (i := 0) (k := 1) (by simp) (off := (q : Int)) (by rw [hq]; simp)
  simp only [List.flatMap_cons, List.flatMap_nil, List.append_nil] at this
  change ReadParticles.fread (A ++ (markerBytes (!sys) n ++ B)) q 4 1 = _ at this
  unfold CFile.int
  have hr : CFile.read ⟨A ++ (markerBytes (!sys) n ++ B), q⟩ 4 1 = .ok ([storeItem (!sys) true (leBytes 4 n)], ⟨A ++ (markerBytes (!sys) n ++ B), q + 4⟩) := by
    unfold CFile.read
    dsimp only
    rw [this]
    rfl
  rw [bindOk _ hr]
  simp only [List.headD_cons]
  rw [value4_native sys (by simp), int32_leBytes _ hn]

theorem payload_length_order (big : Bool) (C : Content) (s : Section) : (s.payload big C).length = (s.payload false C).length := by
  unfold Section.payload
  rw [List.length_flatMap, List.length_flatMap]
  congr 1
  refine List.map_congr_left fun r _ => ?_
  unfold Row.bytes
  rw [List.length_flatMap, List.length_flatMap]
  congr 1
  exact List.map_congr_left fun v _ => by rw [length_storeItem, length_storeItem]

/-- A record somewhere in a file -/
def RecordAt (sys : Bool) (C : Content) (file : List Byte) (p : Nat) (rows : List Row) : Prop :=
  ∃ A B, file = A ++ (markerBytes (!sys) (Section.payload (!sys) C ⟨true, rows⟩).length ++ (Section.payload (!sys) C ⟨true, rows⟩ ++
    (markerBytes (!sys) (Section.payload (!sys) C ⟨true, rows⟩).length ++ B))) ∧ A.length = p ∧ (Section.payload (!sys) C ⟨true, rows⟩).length < 2147483648

theorem recordAt {sys : Bool} {C : Content} {L before after : Layout} {rows : List Row} (hL : L = before ++ ⟨true, rows⟩ :: after) (hf : L.Fits C) (rest : List Byte) {p : Nat}
    (hp : (Layout.bytes (!sys) C before).length = p) : RecordAt sys C (L.bytes (!sys) C ++ rest) p rows := by
  refine ⟨Layout.bytes (!sys) C before, Layout.bytes (!sys) C after ++ rest, ?_, hp, ?_⟩
  · rw [hL]; simp [Layout.bytes, Section.bytes]
  · rw [payload_length_order]
    exact hf.records _ (by rw [hL]; simp) rfl

theorem RecordAt.start {sys : Bool} {rows : List Row} (h : RecordAt sys C file p rows) :
    CFile.int sys ⟨file, p⟩ = .ok (((Section.payload (!sys) C ⟨true, rows⟩).length : Int), ⟨file, p + 4⟩) := by
  obtain ⟨A, B, h1, h2, h3⟩ := h
  rw [h1]
  exact marker_int sys h3 A _ h2.symm

theorem RecordAt.end {sys : Bool} {rows : List Row} (h : RecordAt sys C file p rows) {q : Nat} (hq : q = p + 4 + (Section.payload (!sys) C ⟨true, rows⟩).length) :
    CFile.int sys ⟨file, q⟩ = .ok (((Section.payload (!sys) C ⟨true, rows⟩).length : Int), ⟨file, q + 4⟩) := by
  obtain ⟨A, B, h1, h2, h3⟩ := h
  have e : file = (A ++ markerBytes (!sys) (Section.payload (!sys) C ⟨true, rows⟩).length ++ Section.payload (!sys) C ⟨true, rows⟩) ++
      (markerBytes (!sys) (Section.payload (!sys) C ⟨true, rows⟩).length ++ B) := by rw [h1]; simp
  rw [e]
  exact marker_int sys h3 _ B (by simp only [List.length_append, length_marker]; omega)

theorem seek_nat (file : List Byte) (p k : Nat) : CFile.seek ⟨file, p⟩ (k : Int) = ⟨file, p + k⟩ := by
  unfold CFile.seek
  dsimp only
  rw [if_neg (by omega), ← Nat.cast_add, Int.toNat_natCast]

theorem RecordAt.skip {sys : Bool} {rows : List Row} (h : RecordAt sys C file p rows) {q : Nat} (hq : q = p + 8 + (Section.payload (!sys) C ⟨true, rows⟩).length) :
    skipRecord sys ⟨file, p⟩ = .ok ⟨file, q⟩ := by
  unfold skipRecord
  rw [bindOk _ h.start]
  dsimp only
  rw [seek_nat, bindOk _ (h.end rfl), hq]
  refine congrArg Except.ok ?_
  simp only [CFile.mk.injEq, true_and]
  omega

end Verif.GroupLib
