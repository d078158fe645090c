import Verif.Proofs.SwiftWrapper
import Mathlib.Tactic.FinCases
import Mathlib.Tactic.NormNum
import Mathlib.Algebra.Order.Ring.Rat

/-!
C91: wrappers of files with SWIFT metadata.
-/

namespace Verif

variable {K : Type*} [Field K] [LinearOrder K]

/-- The registry made from the metadata -/
theorem soapRegistry_ok {f : H5 K} (hf : f.Ok) (ampere : K) {p : List Name} {uI uL uM uT ut a h parsec msun G : K} (hm : SwiftMetadata f p uI uL uM uT ut a h parsec msun G) :
    ∃ reg, soapRegistry ampere f p = .ok reg ∧ Registry.base reg = snapBase ampere uI uL uM uT ut a h ∧ Registry.value reg (.snap .angle) = some 1 ∧
      Registry.value reg .swiftMpc = some (1000000 * parsec) ∧ Registry.value reg .swiftMsun = some msun ∧ Registry.value reg .newtonG = some G := by
  obtain ⟨pa, pd, hpm, hpd, hpv⟩ := group_dict hf hm.constants
  obtain ⟨ca, cd, hcm, hcd, hcv⟩ := group_dict hf hm.cosmology
  have ha : attrGet cd "Scale-factor".toList = .ok a := by
    apply hcv
    obtain ⟨attrs, h1, h2⟩ := hm.a
    exact ⟨attrs, _, h1, h2, Or.inr rfl⟩
  unfold soapRegistry
  rw [attrs_of hf p _ ["PhysicalConstants".toList, "CGS".toList] _ (by decide +kernel) (by decide +kernel) (by decide +kernel) hpm]
  dsimp only
  rw [hpd]
  dsimp only
  rw [attrs_of hf p _ ["Cosmology".toList] _ (by decide +kernel) (by decide +kernel) (by decide +kernel) hcm]
  dsimp only
  rw [hcd]
  dsimp only
  rw [ha, hcv _ _ hm.h, defineGroup_ok hf ampere p _ (by decide +kernel) (by decide +kernel) (by decide +kernel) .snap [] hm.units]
  dsimp only
  rcases hm.code with hno | ⟨cI, cL, cM, cT, ct, hcu⟩
  · rw [defineGroup_absent hf ampere p _ (by decide +kernel) (by decide +kernel) (by decide +kernel) .code _ hno]
    dsimp only
    rw [if_pos (by rfl), hpv _ _ hm.parsec, hpv _ _ hm.msun, hpv _ _ hm.G]
    exact ⟨_, rfl, funext fun s => by cases s <;> rfl, rfl, rfl, rfl, rfl⟩
  · rw [defineGroup_ok hf ampere p _ (by decide +kernel) (by decide +kernel) (by decide +kernel) .code _ hcu]
    dsimp only
    rw [if_pos (by rfl), hpv _ _ hm.parsec, hpv _ _ hm.msun, hpv _ _ hm.G]
    exact ⟨_, rfl, funext fun s => by cases s <;> rfl, rfl, rfl, rfl, rfl⟩

/-- C91: a file with metadata is opened in any mode, known or not. The units of its registry have the values in the metadata. -/
theorem C91_open {f : H5 K} (hf : f.Ok) (ampere : K) (sio : H5 K → List Name → Except Err (SwiftsimioMeta K)) (mode : Name) {metadataPath : Name} {p : List Name}
    (hp : h5Open f [] metadataPath = .ok p) {uI uL uM uT ut a h parsec msun G : K} (hm : SwiftMetadata f p uI uL uM uT ut a h parsec msun G) {s : SwiftsimioMeta K} (hs : sio f p = .ok s) :
    ∃ reg, swiftFile ampere sio f mode metadataPath =
        .ok (.group [] { soap_registry := some reg, swiftsimio_units := some s.units, mode := some mode, cosmology := some s.cosmology, expansion_factor := some a }) ∧
      Registry.base reg = snapBase ampere uI uL uM uT ut a h ∧ Registry.value reg (.snap .angle) = some 1 ∧
      Registry.value reg .swiftMpc = some (1000000 * parsec) ∧ Registry.value reg .swiftMsun = some msun ∧ Registry.value reg .newtonG = some G := by
  obtain ⟨reg, hr, hv⟩ := soapRegistry_ok hf ampere hm
  refine ⟨reg, ?_, hv⟩
  obtain ⟨ca, h1, h2⟩ := hm.a
  unfold swiftFile
  rw [hp]
  dsimp only
  rw [hr]
  dsimp only
  rw [hs]
  dsimp only
  rw [attrs_of hf p _ ["Cosmology".toList] _ (by decide +kernel) (by decide +kernel) (by decide +kernel) h1]
  dsimp only
  rw [attrGet_ok (hf.attrs _ _ h1) h2]

/-- C91: without the group "Units" there is no unit system, which is a UnitParseError; without the groups of the constants or of the cosmology there is a KeyError. -/
theorem C91_no_metadata {f : H5 K} (hf : f.Ok) (ampere : K) (sio : H5 K → List Name → Except Err (SwiftsimioMeta K)) (mode : Name) {metadataPath : Name} {p : List Name}
    (hp : h5Open f [] metadataPath = .ok p) :
    ((∀ o, (p ++ ["PhysicalConstants".toList, "CGS".toList], o) ∉ f) → swiftFile ampere sio f mode metadataPath = .error .keyError) ∧
    (NumberGroup f (p ++ ["PhysicalConstants".toList, "CGS".toList]) → (∀ o, (p ++ ["Cosmology".toList], o) ∉ f) → swiftFile ampere sio f mode metadataPath = .error .keyError) ∧
    (∀ a h, NumberGroup f (p ++ ["PhysicalConstants".toList, "CGS".toList]) → NumberGroup f (p ++ ["Cosmology".toList]) → HasNumber f (p ++ ["Cosmology".toList]) "Scale-factor" a →
      HasNumber f (p ++ ["Cosmology".toList]) "h" h → (∀ o, (p ++ ["Units".toList], o) ∉ f) → (∀ o, (p ++ ["InternalCodeUnits".toList], o) ∉ f) →
      swiftFile ampere sio f mode metadataPath = .error .other) := by
  obtain ⟨ra, hr⟩ := hf.root
  obtain ⟨o, hpm⟩ := open_mem hf hr hp
  have key : ∀ (key : Name) (cs : List Name), key ≠ [] → key.head? ≠ some '/' → h5Components key = cs → (∀ o, (p ++ cs, o) ∉ f) → h5Attrs f p key = .error .keyError := by
    intro key cs h1 h2 hc hno
    unfold h5Attrs
    rw [open_rel p key h1 h2, hc]
    cases hw : h5Walk f p cs with
    | ok q =>
      obtain ⟨rfl, o', ho'⟩ := walk_exists hf p cs q o hpm hw
      exact absurd ho' (hno o')
    | error e =>
      dsimp only
      have : ∀ (cs p : List Name) (e : Err), h5Walk f p cs = .error e → e = .keyError := by
        intro cs
        induction cs with
        | nil => intro p e h; cases h
        | cons c cs ih =>
          intro p e h
          unfold h5Walk at h
          split at h
          · split at h
            · exact ih _ _ h
            · cases h; rfl
          · cases h; rfl
      rw [this cs p e hw]
  unfold swiftFile
  rw [hp]
  dsimp only
  unfold soapRegistry
  refine ⟨?_, ?_, ?_⟩
  · intro hno
    rw [key _ ["PhysicalConstants".toList, "CGS".toList] (by decide +kernel) (by decide +kernel) (by decide +kernel) hno]
  · intro hpc hno
    obtain ⟨pa, pd, hpm', hpd, -⟩ := group_dict hf hpc
    rw [attrs_of hf p _ ["PhysicalConstants".toList, "CGS".toList] _ (by decide +kernel) (by decide +kernel) (by decide +kernel) hpm']
    dsimp only
    rw [hpd]
    dsimp only
    rw [key _ ["Cosmology".toList] (by decide +kernel) (by decide +kernel) (by decide +kernel) hno]
  · intro a h hpc hcos ha hh hno hno'
    obtain ⟨pa, pd, hpm', hpd, -⟩ := group_dict hf hpc
    obtain ⟨ca, cd, hcm, hcd, hcv⟩ := group_dict hf hcos
    rw [attrs_of hf p _ ["PhysicalConstants".toList, "CGS".toList] _ (by decide +kernel) (by decide +kernel) (by decide +kernel) hpm']
    dsimp only
    rw [hpd]
    dsimp only
    rw [attrs_of hf p _ ["Cosmology".toList] _ (by decide +kernel) (by decide +kernel) (by decide +kernel) hcm]
    dsimp only
    rw [hcd]
    dsimp only
    rw [hcv _ _ ha, hcv _ _ hh, defineGroup_absent hf ampere p _ (by decide +kernel) (by decide +kernel) (by decide +kernel) .snap _ hno]
    dsimp only
    rw [defineGroup_absent hf ampere p _ (by decide +kernel) (by decide +kernel) (by decide +kernel) .code _ hno']
    dsimp only
    rw [if_neg (by simp [Registry.value])]

/-- The attributes of a file which was opened -/
def Attached.Complete (att : Attached K) : Prop := ∃ r u m c x, att = { soap_registry := some r, swiftsimio_units := some u, mode := some m, cosmology := some c, expansion_factor := some x }

omit [Field K] [LinearOrder K] in
theorem attach_complete {att : Attached K} (h : att.Complete) : attach att = .ok att := by
  obtain ⟨r, u, m, c, x, rfl⟩ := h
  rfl

/-- The wrapper of an object -/
inductive Wraps (f : H5 K) (att : Attached K) : List Name → SwiftObj K → Prop
  | dataset {q : List Name} (data : List K) (attrs : UnitAttrs K K) : (q, H5Obj.dataset data attrs) ∈ f → Wraps f att q (.dataset q attrs att)
  | group {q : List Name} (attrs : List (Name × AttrVal K)) : (q, H5Obj.group attrs) ∈ f → Wraps f att q (.group q att)
  | raw {q : List Name} : (q, H5Obj.namedType) ∈ f → Wraps f att q (.raw q)

omit [LinearOrder K] in
theorem swiftGet_ok {f : H5 K} (hf : f.Ok) {att : Attached K} (hatt : att.Complete) {p q : List Name} {o : H5Obj K} (hp : (p, o) ∈ f) {k : Name} (h : h5Open f p k = .ok q) :
    ∃ w, swiftGet f p att k = .ok w ∧ Wraps f att q w := by
  obtain ⟨o', ho'⟩ := open_mem hf hp h
  unfold swiftGet
  rw [h]
  dsimp only
  rw [obj_of_mem hf.nodup ho']
  cases o' with
  | dataset d attrs => dsimp only; rw [attach_complete hatt]; exact ⟨_, rfl, .dataset d attrs ho'⟩
  | group attrs => dsimp only; rw [attach_complete hatt]; exact ⟨_, rfl, .group attrs ho'⟩
  | namedType => exact ⟨_, rfl, .raw ho'⟩

omit [LinearOrder K] in
/-- C91: what is found with any sequence of keys is the wrapper of what h5py finds with them, and it has the registry, the units, the mode, the cosmology and the expansion factor of the file. Nothing
else is found. -/
theorem C91_chain {f : H5 K} (hf : f.Ok) {att : Attached K} (hatt : att.Complete) (keys : List Name) :
    (∀ q, PlainChain f [] keys q → ∃ w, swiftChain f (.group [] att) keys = .ok w ∧ Wraps f att q w) ∧
    (∀ w, swiftChain f (.group [] att) keys = .ok w → ∃ q, PlainChain f [] keys q ∧ Wraps f att q w) := by
  obtain ⟨ra, hr⟩ := hf.root
  constructor
  · have : ∀ (p q : List Name) (w : SwiftObj K), Wraps f att p w → PlainChain f p keys q → ∃ w', swiftChain f w keys = .ok w' ∧ Wraps f att q w' := by
      intro p q w hw hc
      induction hc generalizing w with
      | nil p => exact ⟨w, rfl, hw⟩
      | @cons p q r k ks attrs hp ho _ ih =>
        cases hw with
        | dataset d at' hd => have h1 := obj_of_mem hf.nodup hp; rw [obj_of_mem hf.nodup hd] at h1; cases h1
        | raw hd => have h1 := obj_of_mem hf.nodup hp; rw [obj_of_mem hf.nodup hd] at h1; cases h1
        | group at' hd =>
          obtain ⟨w', hw', hww⟩ := swiftGet_ok hf hatt hd ho
          unfold swiftChain
          dsimp only
          rw [hw']
          exact ih w' hww
    exact fun q hq => this [] q _ (.group ra hr) hq
  · have : ∀ (p : List Name) (w w' : SwiftObj K), Wraps f att p w → swiftChain f w keys = .ok w' → ∃ q, PlainChain f p keys q ∧ Wraps f att q w' := by
      induction keys with
      | nil => intro p w w' hw h; cases h; exact ⟨p, .nil p, hw⟩
      | cons k ks ih =>
        intro p w w' hw h
        unfold swiftChain at h
        cases hw with
        | dataset d at' hd => cases h
        | raw hd => cases h
        | group at' hd =>
          dsimp only at h
          cases ho : h5Open f p k with
          | error e =>
            have : swiftGet f p att k = .error e := by unfold swiftGet; rw [ho]
            rw [this] at h; cases h
          | ok q =>
            obtain ⟨w1, hw1, hww⟩ := swiftGet_ok hf hatt hd ho
            rw [hw1] at h
            obtain ⟨r, hr', hwr⟩ := ih q w1 w' hww h
            exact ⟨r, .cons at' hd ho hr', hwr⟩
    exact fun w hw => this [] _ w (.group ra hr) hw

omit [LinearOrder K] in
/-- C91: `g["a/b"]` is `g["a"]["b"]`, if `g["a"]` is a group; the first key may begin with a slash. -/
theorem C91_path {f : H5 K} (hf : f.Ok) {att : Attached K} (hatt : att.Complete) {p q : List Name} {o : H5Obj K} (hp : (p, o) ∈ f) {k1 k2 : Name} (h1 : h5Open f p k1 = .ok q)
    (hk2 : k2 ≠ []) (hk2' : k2.head? ≠ some '/') : swiftGet f p att (k1 ++ '/' :: k2) = swiftGet f q att k2 := by
  have hopen : h5Open f p (k1 ++ '/' :: k2) = h5Open f q k2 := by
    rw [open_rel q k2 hk2 hk2']
    have hw : ∃ s, h5Open f p k1 = h5Walk f s (h5Components k1) ∧ h5Open f p (k1 ++ '/' :: k2) = h5Walk f s (h5Components (k1 ++ '/' :: k2)) := by
      cases k1 with
      | nil => cases h1
      | cons c k1 =>
        by_cases hc : c = '/'
        · subst hc; exact ⟨[], rfl, rfl⟩
        · refine ⟨p, open_rel p _ (by simp) (by simpa using hc), open_rel p _ (by simp) (by simpa using hc)⟩
    obtain ⟨s, e1, e2⟩ := hw
    rw [e2, components_append, walk_append, ← e1, h1]
  unfold swiftGet
  rw [hopen]

omit [LinearOrder K] in
/-- C91: a name which h5py does not find is a KeyError. -/
theorem C91_missing {f : H5 K} {att : Attached K} {p : List Name} {k : Name} (h : h5Open f p k = .error .keyError) :
    swiftGet f p att k = .error .keyError ∧ swiftContains f p att k = .ok false := by
  have : swiftGet f p att k = .error .keyError := by unfold swiftGet; rw [h]
  refine ⟨this, ?_⟩
  unfold swiftContains
  rw [this]

omit [LinearOrder K] in
/-- C91: a wrapper without one of the attributes, as if it was not made by opening a file, gives an AttributeError for every object which h5py finds, also if one only asks whether it is there. -/
theorem C91_unattached {f : H5 K} (hf : f.Ok) {att : Attached K} (hatt : ¬ att.Complete) {p q : List Name} {k : Name} (h : h5Open f p k = .ok q)
    (ho : (∃ attrs, (q, H5Obj.group attrs) ∈ f) ∨ ∃ data attrs, (q, H5Obj.dataset data attrs) ∈ f) :
    swiftGet f p att k = .error .attributeError ∧ swiftContains f p att k = .error .attributeError := by
  have ha : attach att = .error .attributeError := by
    obtain ⟨r, u, m, c, x⟩ := att
    cases r <;> cases u <;> cases m <;> cases c <;> cases x <;> first | rfl | exact absurd ⟨_, _, _, _, _, rfl⟩ hatt
  have : swiftGet f p att k = .error .attributeError := by
    unfold swiftGet
    rw [h]
    dsimp only
    rcases ho with ⟨a, ho⟩ | ⟨d, a, ho⟩
    · rw [obj_of_mem hf.nodup ho]
      dsimp only
      rw [ha]
    · rw [obj_of_mem hf.nodup ho]
      dsimp only
      rw [ha]
  refine ⟨this, ?_⟩
  unfold swiftContains
  rw [this]

omit [Field K] [LinearOrder K] in
theorem mem_swiftIter (f : H5 K) (p : List Name) (n : Name) : n ∈ swiftIter f p ↔ ∃ o, (p ++ [n], o) ∈ f := by
  unfold swiftIter
  rw [List.mem_filterMap]
  constructor
  · rintro ⟨⟨path, o⟩, hm, hn⟩
    dsimp only at hn
    split at hn
    · cases hn
    · next n' r hr =>
      split at hn
      · next hp' =>
        cases hn
        have : path = p ++ [n] := by rw [← List.reverse_reverse path, hr, List.reverse_cons, hp']
        exact ⟨o, this ▸ hm⟩
      · cases hn
  · rintro ⟨o, hm⟩
    refine ⟨_, hm, ?_⟩
    simp

omit [Field K] [LinearOrder K] in
theorem nodup_swiftIter (f : H5 K) (p : List Name) (hf : (f.map (·.1)).Nodup) : (swiftIter f p).Nodup := by
  induction f with
  | nil => exact List.nodup_nil
  | cons x f ih =>
    rw [List.map_cons, List.nodup_cons] at hf
    have ih := ih hf.2
    obtain ⟨path, o⟩ := x
    by_cases hx : ∃ n, path = p ++ [n]
    · obtain ⟨n, rfl⟩ := hx
      have : swiftIter ((p ++ [n], o) :: f) p = n :: swiftIter f p := by
        unfold swiftIter
        rw [List.filterMap_cons]
        simp
      rw [this, List.nodup_cons]
      refine ⟨?_, ih⟩
      rw [mem_swiftIter]
      rintro ⟨o', ho'⟩
      exact hf.1 (List.mem_map_of_mem (f := (·.1)) ho')
    · have : swiftIter ((path, o) :: f) p = swiftIter f p := by
        unfold swiftIter
        rw [List.filterMap_cons]
        split
        · rfl
        · next n hn =>
          exfalso
          apply hx
          dsimp only at hn
          split at hn
          · cases hn
          · next n' r hr =>
            split at hn
            · next hp' => exact ⟨n', by rw [← List.reverse_reverse path, hr, List.reverse_cons, hp']⟩
            · cases hn
      rw [this]
      exact ih

/-- C91: iteration over a group gives the names of the objects in it, and `items` gives with each name the wrapper of the object. -/
theorem C91_items {f : H5 K} (hf : f.Ok) {att : Attached K} (hatt : att.Complete) {p : List Name} {attrs : List (Name × AttrVal K)} (hp : (p, H5Obj.group attrs) ∈ f) :
    (∀ n, n ∈ swiftIter f p ↔ ∃ o, (p ++ [n], o) ∈ f) ∧ (swiftIter f p).Nodup ∧
    ∃ items, swiftItems f p att (swiftIter f p) = .ok items ∧ items.map (·.1) = swiftIter f p ∧ ∀ nw ∈ items, Wraps f att (p ++ [nw.1]) nw.2 ∧ swiftContains f p att nw.1 = .ok true := by
  have hiter := mem_swiftIter f p
  refine ⟨hiter, nodup_swiftIter f p hf.nodup, ?_⟩
  · have : ∀ l : List Name, (∀ n ∈ l, ∃ o, (p ++ [n], o) ∈ f) →
        ∃ items, swiftItems f p att l = .ok items ∧ items.map (·.1) = l ∧ ∀ nw ∈ items, Wraps f att (p ++ [nw.1]) nw.2 ∧ swiftContains f p att nw.1 = .ok true := by
      intro l hl
      induction l with
      | nil => exact ⟨[], rfl, rfl, fun _ h => by cases h⟩
      | cons n l ih =>
        obtain ⟨items, hi, hm, hw⟩ := ih (fun n' h' => hl n' (List.mem_cons_of_mem _ h'))
        obtain ⟨o, ho⟩ := hl n List.mem_cons_self
        obtain ⟨h1, h2, h3⟩ := hf.names _ _ _ ho
        have hhead : n.head? ≠ some '/' := by
          intro hh
          cases n with
          | nil => cases hh
          | cons c n => cases hh; exact h3 List.mem_cons_self
        obtain ⟨w, hw1, hw2⟩ := swiftGet_ok hf hatt hp (open_of hf p n [n] o h1 hhead (components_name h1 h2 h3) ho)
        refine ⟨(n, w) :: items, ?_, ?_, ?_⟩
        · unfold swiftItems; rw [hw1, hi]
        · rw [List.map_cons, hm]
        · intro nw hnw
          rcases List.mem_cons.1 hnw with rfl | hnw
          · refine ⟨hw2, ?_⟩
            unfold swiftContains
            rw [hw1]
          · exact hw nw hnw
    exact this _ (fun n hn => (hiter n).1 hn)

variable [IsStrictOrderedRing K]

/-- C91: in the mode "soap", what is read from a dataset found with any keys are the selected numbers, in the units of the attributes of the dataset and the metadata of the file. The value of each
number in CGS units is the number times the conversion factor of the attributes, to within 1e-9 of it. -/
theorem C91_soap {f : H5 K} (hf : f.Ok) (pow : K → K → K) (ampere : K) (sio : H5 K → List Name → Except Err (SwiftsimioMeta K)) {metadataPath : Name} {p : List Name}
    (hp : h5Open f [] metadataPath = .ok p) {uI uL uM uT ut a h parsec msun G : K} (hm : SwiftMetadata f p uI uL uM uT ut a h parsec msun G) {s : SwiftsimioMeta K} (hs : sio f p = .ok s)
    {keys q : List Name} (hq : PlainChain f [] keys q) {data : List K} {attrs : UnitAttrs K K} (hd : (q, H5Obj.dataset data attrs) ∈ f) {e : UnitSym → K} (he : HasExponents attrs e) {x : K}
    (hx : attrs.physical = some x ∨ (attrs.physical = none ∧ attrs.including = some x)) (hne : productOfPowers pow (snapBase ampere uI uL uM uT ut a h) e ≠ 0)
    (sel : List K → Except Err (List K)) {xs : List K} (hsel : sel data = .ok xs) :
    ∃ file, swiftFile ampere sio f "soap".toList metadataPath = .ok file ∧ ∃ att, swiftChain f file keys = .ok (.dataset q attrs att) ∧
      ∃ r, datasetGet pow f q attrs att sel = .ok (.unyt xs r) ∧ (∀ s, r.unit.exps s = e s) ∧
        ∀ v ∈ xs, |v * x - v * resultValue pow (snapBase ampere uI uL uM uT ut a h) r| ≤ (1 / 1000000000) * |v * resultValue pow (snapBase ampere uI uL uM uT ut a h) r| := by
  obtain ⟨reg, hfile, hbase, -⟩ := C91_open hf ampere sio "soap".toList hp hm hs
  refine ⟨_, hfile, ?_⟩
  obtain ⟨w, hw, hww⟩ := (C91_chain hf ⟨reg, s.units, "soap".toList, s.cosmology, a, rfl⟩ keys).1 q hq
  have hwd : w = .dataset q attrs { soap_registry := some reg, swiftsimio_units := some s.units, mode := some "soap".toList, cosmology := some s.cosmology, expansion_factor := some a } := by
    have h1 := obj_of_mem hf.nodup hd
    cases hww with
    | dataset d at' h2 => rw [obj_of_mem hf.nodup h2] at h1; cases h1; rfl
    | group at' h2 => rw [obj_of_mem hf.nodup h2] at h1; cases h1
    | raw h2 => rw [obj_of_mem hf.nodup h2] at h1; cases h1
  subst hwd
  refine ⟨_, hw, ?_⟩
  obtain ⟨r, hr, hexps, -, hval⟩ := C66_units pow (snapBase ampere uI uL uM uT ut a h) he hx hne
  refine ⟨r, ?_, hexps, ?_⟩
  · unfold datasetGet
    rw [obj_of_mem hf.nodup hd]
    dsimp only
    rw [hsel]
    dsimp only [selfAttr]
    rw [if_pos rfl, hbase, hr]
  · intro v _
    rw [← mul_sub, abs_mul, abs_mul, mul_left_comm]
    exact mul_le_mul_of_nonneg_left hval (abs_nonneg v)

/-- C91: in the mode "swiftsimio", what is read are the selected numbers with units which contain no power of the expansion factor, the exponent and the value of the expansion factor, and a flag
which is set if the exponent is not zero. -/
theorem C91_swiftsimio {f : H5 K} (hf : f.Ok) (pow : K → K → K) (ampere : K) (sio : H5 K → List Name → Except Err (SwiftsimioMeta K)) {metadataPath : Name} {p : List Name}
    (hp : h5Open f [] metadataPath = .ok p) {uI uL uM uT ut a h parsec msun G : K} (hm : SwiftMetadata f p uI uL uM uT ut a h parsec msun G) {s : SwiftsimioMeta K} (hs : sio f p = .ok s)
    {keys q : List Name} (hq : PlainChain f [] keys q) {data : List K} {attrs : UnitAttrs K K} (hd : (q, H5Obj.dataset data attrs) ∈ f) {e : UnitSym → K} (he : HasExponents attrs e) {x : K}
    (hx : attrs.notIncluding = some x) (hh : e .h = 0) (ha : e .a = 0 ∨ e .a = e .L) (hne : productOfPowers pow s.units (fun s => if s = .a then 0 else e s) ≠ 0)
    (sel : List K → Except Err (List K)) {xs : List K} (hsel : sel data = .ok xs) :
    ∃ file, swiftFile ampere sio f "swiftsimio".toList metadataPath = .ok file ∧ ∃ att, swiftChain f file keys = .ok (.dataset q attrs att) ∧
      ∃ r comoving, datasetGet pow f q attrs att sel = .ok (.cosmo xs r comoving (e .a) a) ∧ (comoving = true ↔ e .a ≠ 0) ∧ (∀ s, r.unit.exps s = if s = .a then 0 else e s) ∧
        ∀ v ∈ xs, |v * x - v * resultValue pow s.units r| ≤ (1 / 1000000000) * |v * resultValue pow s.units r| := by
  obtain ⟨reg, hfile, -⟩ := C91_open hf ampere sio "swiftsimio".toList hp hm hs
  refine ⟨_, hfile, ?_⟩
  obtain ⟨w, hw, hww⟩ := (C91_chain hf ⟨reg, s.units, "swiftsimio".toList, s.cosmology, a, rfl⟩ keys).1 q hq
  have hwd : w = .dataset q attrs { soap_registry := some reg, swiftsimio_units := some s.units, mode := some "swiftsimio".toList, cosmology := some s.cosmology, expansion_factor := some a } := by
    have h1 := obj_of_mem hf.nodup hd
    cases hww with
    | dataset d at' h2 => rw [obj_of_mem hf.nodup h2] at h1; cases h1; rfl
    | group at' h2 => rw [obj_of_mem hf.nodup h2] at h1; cases h1
    | raw h2 => rw [obj_of_mem hf.nodup h2] at h1; cases h1
  subst hwd
  refine ⟨_, hw, ?_⟩
  obtain ⟨r, comoving, hr, hcom, hexps, -, hval⟩ := C72_units pow s.units he hx hh ha hne
  refine ⟨r, comoving, ?_, hcom, hexps, ?_⟩
  · unfold datasetGet
    rw [obj_of_mem hf.nodup hd]
    dsimp only
    rw [hsel]
    dsimp only [selfAttr]
    rw [if_neg (by decide +kernel), if_pos rfl, hr]
    dsimp only
    rw [get_of_has he]
  · intro v _
    rw [← mul_sub, abs_mul, abs_mul, mul_left_comm]
    exact mul_le_mul_of_nonneg_left hval (abs_nonneg v)

omit [IsStrictOrderedRing K] in
/-- C91: a mode which is neither of the two is a ValueError, but only when data are read. -/
theorem C91_mode {f : H5 K} (hf : f.Ok) (pow : K → K → K) {att : Attached K} {mode : Name} (hmode : att.mode = some mode) (h1 : mode ≠ "soap".toList) (h2 : mode ≠ "swiftsimio".toList)
    {q : List Name} {data : List K} {attrs : UnitAttrs K K} (hd : (q, H5Obj.dataset data attrs) ∈ f) (sel : List K → Except Err (List K)) {xs : List K} (hsel : sel data = .ok xs) :
    datasetGet pow f q attrs att sel = .error .valueError := by
  unfold datasetGet
  rw [obj_of_mem hf.nodup hd]
  dsimp only
  rw [hsel, hmode]
  dsimp only [selfAttr]
  rw [if_neg h1, if_neg h2]

omit [IsStrictOrderedRing K] in
/-- C91, a defect: for an integer, `i in dataset` does not look for a value, as it does for an array. It is true for every index of an element, and an IndexError for any other number, whatever the
values are. Iteration over a dataset gives its numbers without units. -/
theorem C91_sequence_defect {f : H5 K} (hf : f.Ok) (pow : K → K → K) {q : List Name} {data : List K} {attrs : UnitAttrs K K} (hd : (q, H5Obj.dataset data attrs) ∈ f) {att : Attached K}
    (hread : ∀ (sel : List K → Except Err (List K)) xs, sel data = .ok xs → ∃ r, datasetGet pow f q attrs att sel = .ok (.unyt xs r)) (i : Int) :
    ((-(data.length : Int) ≤ i ∧ i < data.length) → datasetContains pow f q attrs att i = .ok true) ∧
    ((i < -(data.length : Int) ∨ (data.length : Int) ≤ i) → datasetContains pow f q attrs att i = .error .indexError) ∧ datasetIter f q = .ok data := by
  refine ⟨?_, ?_, ?_⟩
  · intro hi
    have : ∃ xs, elementAt i data = .ok xs := by
      unfold elementAt
      dsimp only
      generalize hj : (if i < 0 then i + (data.length : Int) else i) = j
      have h1 : 0 ≤ j := by split at hj <;> omega
      have h2 : j < data.length := by split at hj <;> omega
      rw [if_neg (by omega), List.getElem?_eq_getElem (by omega)]
      exact ⟨_, rfl⟩
    obtain ⟨xs, hxs⟩ := this
    obtain ⟨r, hr⟩ := hread _ _ hxs
    unfold datasetContains
    rw [hr]
  · intro hi
    have : elementAt i data = .error .indexError := by
      unfold elementAt
      dsimp only
      generalize hj : (if i < 0 then i + (data.length : Int) else i) = j
      by_cases h1 : j < 0
      · rw [if_pos h1]
      · rw [if_neg h1, List.getElem?_eq_none (by split at hj <;> omega)]
    unfold datasetContains datasetGet
    rw [obj_of_mem hf.nodup hd]
    dsimp only
    rw [this]
  · unfold datasetIter
    rw [obj_of_mem hf.nodup hd]

namespace ExSwift

def num (n : String) (x : ℚ) : Name × AttrVal ℚ := (n.toList, .array [x])

/-- A velocity in units of 1000 with the factor 1/2 for the expansion factor -/
def velocity : UnitAttrs ℚ ℚ where
  exponent := fun s => some [match s with | .L => 1 | .t => -1 | .a => 1 | _ => 0]
  physical := some (25 / 2)
  including := none
  notIncluding := some 25

/-- A comoving length of which the unit is three units of the file -/
def coordinates : UnitAttrs ℚ ℚ where
  exponent := fun s => some [match s with | .L => 1 | .a => 1 | _ => 0]
  physical := some 150
  including := none
  notIncluding := some 300

def file : H5 ℚ :=
  [([], .group []),
   (["Units".toList], .group [num "Unit current in cgs (U_I)" 1, num "Unit length in cgs (U_L)" 100, num "Unit mass in cgs (U_M)" 7, num "Unit temperature in cgs (U_T)" 1,
     num "Unit time in cgs (U_t)" 4]),
   (["Cosmology".toList], .group [num "Scale-factor" (1 / 2), num "h" (7 / 10)]),
   (["PhysicalConstants".toList], .group []),
   (["PhysicalConstants".toList, "CGS".toList], .group [num "parsec" 3, num "solar_mass" 2, num "newton_G" 6]),
   (["PartType1".toList], .group []),
   (["PartType1".toList, "Velocities".toList], .dataset [10, 20, 30] velocity),
   (["PartType1".toList, "Coordinates".toList], .dataset [5, 6] coordinates)]

theorem file_ok : file.Ok where
  root := ⟨[], List.mem_cons_self⟩
  nodup := by decide +kernel
  parents := by
    intro p n o h
    have : ∀ x ∈ file.map (·.1), ∀ n ∈ x.getLast?, ∃ o ∈ file, o.1 = x.dropLast ∧ (match o.2 with | .group _ => true | _ => false) = true := by decide +kernel
    have h2 := this _ (List.mem_map_of_mem (f := (·.1)) h) n (by simp)
    obtain ⟨⟨p', o'⟩, ho', hp', hg⟩ := h2
    rw [List.dropLast_concat] at hp'
    dsimp only at hp'
    subst hp'
    cases o' with
    | group attrs => exact ⟨attrs, ho'⟩
    | dataset _ _ => exact absurd hg (by simp)
    | namedType => exact absurd hg (by simp)
  names := by
    intro p n o h
    have : ∀ x ∈ file.map (·.1), ∀ n ∈ x.getLast?, n ≠ [] ∧ n ≠ ['.'] ∧ '/' ∉ n := by decide +kernel
    exact this _ (List.mem_map_of_mem (f := (·.1)) h) n (by simp)
  attrs := by
    intro p attrs h
    have : ∀ x ∈ file, (match x.2 with | .group attrs => decide (attrs.map (·.1)).Nodup | _ => true) = true := by decide +kernel
    exact of_decide_eq_true (this _ h)

/-- A wrapper without a mode -/
example : swiftGet file [] { cosmology := some 0 } "PartType1/Velocities".toList = .error .attributeError ∧
    swiftContains file [] { cosmology := some 0 } "PartType1/Velocities".toList = .error .attributeError :=
  C91_unattached file_ok (by rintro ⟨r, u, m, c, x, h⟩; cases h) (q := ["PartType1".toList, "Velocities".toList]) (by rfl) (Or.inr ⟨_, _, List.mem_of_getElem? (i := 6) rfl⟩)

theorem number_group (p : List Name) (attrs : List (Name × AttrVal ℚ)) (h : (p, H5Obj.group attrs) ∈ file) (h2 : ∀ a ∈ attrs, match a.2 with | .array [_] => True | _ => False) :
    NumberGroup file p := by
  refine ⟨attrs, h, ?_⟩
  rintro ⟨n, v⟩ ha
  have := h2 _ ha
  cases v with
  | scalar x => exact absurd this (by simp)
  | text => exact absurd this (by simp)
  | array xs =>
    cases xs with
    | nil => exact absurd this (by simp)
    | cons x xs =>
      cases xs with
      | nil => exact ⟨x, Or.inr rfl⟩
      | cons y ys => exact absurd this (by simp)

/-- The metadata of the example -/
theorem file_metadata : SwiftMetadata file [] 1 100 7 1 4 (1 / 2) (7 / 10) 3 2 6 := by
  have hu : ([] ++ ["Units".toList], H5Obj.group [num "Unit current in cgs (U_I)" 1, num "Unit length in cgs (U_L)" 100, num "Unit mass in cgs (U_M)" 7,
      num "Unit temperature in cgs (U_T)" 1, num "Unit time in cgs (U_t)" 4]) ∈ file := by simp [file]
  have hc : ([] ++ ["Cosmology".toList], H5Obj.group [num "Scale-factor" (1 / 2), num "h" (7 / 10)]) ∈ file := by simp [file]
  have hp : ([] ++ ["PhysicalConstants".toList, "CGS".toList], H5Obj.group [num "parsec" 3, num "solar_mass" 2, num "newton_G" 6]) ∈ file := by simp [file]
  refine ⟨⟨number_group _ _ hu ?_, ?_, ?_, ?_, ?_, ?_⟩, Or.inl ?_, number_group _ _ hc ?_, ⟨_, hc, ?_⟩, ?_, number_group _ _ hp ?_, ?_, ?_, ?_⟩
  · intro a ha; fin_cases ha <;> trivial
  · exact ⟨_, _, hu, by simp [num], Or.inr rfl⟩
  · exact ⟨_, _, hu, by simp [num], Or.inr rfl⟩
  · exact ⟨_, _, hu, by simp [num], Or.inr rfl⟩
  · exact ⟨_, _, hu, by simp [num], Or.inr rfl⟩
  · exact ⟨_, _, hu, by simp [num], Or.inr rfl⟩
  · intro o ho
    have : ["InternalCodeUnits".toList] ∉ file.map (·.1) := by decide +kernel
    exact this (List.mem_map_of_mem (f := (·.1)) ho)
  · intro a ha; fin_cases ha <;> trivial
  · simp [num]
  · exact ⟨_, _, hc, by simp [num], Or.inr rfl⟩
  · intro a ha; fin_cases ha <;> trivial
  · exact ⟨_, _, hp, by simp [num], Or.inr rfl⟩
  · exact ⟨_, _, hp, by simp [num], Or.inr rfl⟩
  · exact ⟨_, _, hp, by simp [num], Or.inr rfl⟩

/-- Powers with the exponents of the example -/
def pow (b e : ℚ) : ℚ := if e = 1 then b else if e = -1 then 1 / b else 1

def sio : H5 ℚ → List Name → Except Err (SwiftsimioMeta ℚ) := fun _ _ => .ok ⟨fun s => match s with | .L => 100 | .t => 4 | _ => 1, 0⟩

/-- What is read, as numbers in CGS units (without the power of the expansion factor in the second mode) -/
def cgs (mode : String) (keys : List String) (sel : List ℚ → Except Err (List ℚ)) : Except Err (List ℚ) :=
  match swiftSnapshot 1 sio file (some mode.toList) with
  | .error e => .error e
  | .ok o =>
    match swiftChain file o (keys.map (·.toList)) with
    | .ok (.dataset q attrs att) =>
      match datasetGet pow file q attrs att sel with
      | .ok (.unyt xs r) => .ok (xs.map (fun x => x * (r.factor.getD 1 * (100 : ℚ) ^ (r.unit.exps .L).num * 4 ^ (r.unit.exps .t).num * (1 / 2) ^ (r.unit.exps .a).num)))
      | .ok (.cosmo xs r _ _ _) => .ok (xs.map (fun x => x * (r.factor.getD 1 * (100 : ℚ) ^ (r.unit.exps .L).num * 4 ^ (r.unit.exps .t).num)))
      | .error e => .error e
    | .ok _ => .error .other
    | .error e => .error e

example : cgs "soap" ["PartType1", "Velocities"] (fun l => .ok l) = .ok [125, 250, 375] := by decide +kernel
example : cgs "soap" ["PartType1/Velocities"] (elementAt (-1)) = .ok [375] := by decide +kernel
example : cgs "soap" ["PartType1", "/PartType1//Coordinates"] (fun l => .ok l) = .ok [750, 900] := by decide +kernel
example : cgs "swiftsimio" ["PartType1", "Coordinates"] (fun l => .ok l) = .ok [1500, 1800] := by decide +kernel
example : cgs "swiftsimio" ["PartType1", "Coordinates"] (elementAt 2) = .error .indexError := by decide +kernel
example : cgs "SOAP" ["PartType1", "Coordinates"] (fun l => .ok l) = .error .valueError := by decide +kernel
example : cgs "soap" ["PartType1", "Masses"] (fun l => .ok l) = .error .keyError := by decide +kernel

theorem plain : PlainChain file [] ["PartType1".toList, "Velocities".toList] ["PartType1".toList, "Velocities".toList] :=
  .cons [] (by simp [file]) (q := ["PartType1".toList]) (by decide +kernel) (.cons [] (by simp [file]) (by decide +kernel) (.nil _))

/-- The hypotheses of `C91_soap` hold for the velocities. -/
example : ∃ o, swiftFile 1 sio file "soap".toList "/".toList = .ok o ∧ ∃ att, swiftChain file o ["PartType1".toList, "Velocities".toList] =
    .ok (.dataset ["PartType1".toList, "Velocities".toList] velocity att) ∧ ∃ r, datasetGet pow file ["PartType1".toList, "Velocities".toList] velocity att (elementAt 1) = .ok (.unyt [20] r) := by
  obtain ⟨o, h1, att, h2, r, h3, -⟩ := C91_soap file_ok pow 1 sio (p := []) (metadataPath := "/".toList) (by decide +kernel) file_metadata (s := ⟨_, 0⟩) rfl plain (data := [10, 20, 30])
    (attrs := velocity) (by simp [file]) (e := fun s => match s with | .L => 1 | .t => -1 | .a => 1 | _ => 0) ⟨fun s => ⟨[], rfl⟩⟩ (x := 25 / 2) (Or.inl rfl) (by decide +kernel)
    (elementAt 1) (xs := [20]) (by decide +kernel)
  exact ⟨o, h1, att, h2, r, h3⟩

/-- The hypotheses of `C91_swiftsimio` hold for the coordinates. -/
example : ∃ o, swiftFile 1 sio file "swiftsimio".toList "/".toList = .ok o ∧ ∃ att, swiftChain file o ["PartType1/Coordinates".toList] =
    .ok (.dataset ["PartType1".toList, "Coordinates".toList] coordinates att) ∧
    ∃ r, datasetGet pow file ["PartType1".toList, "Coordinates".toList] coordinates att (fun l => .ok l) = .ok (.cosmo [5, 6] r true 1 (1 / 2)) := by
  obtain ⟨o, h1, att, h2, r, c, h3, hc, -⟩ := C91_swiftsimio file_ok pow 1 sio (p := []) (metadataPath := "/".toList) (by decide +kernel) file_metadata
    (s := ⟨fun s => match s with | .L => 100 | .t => 4 | _ => 1, 0⟩) rfl
    (keys := ["PartType1/Coordinates".toList]) (q := ["PartType1".toList, "Coordinates".toList]) (.cons [] (by simp [file]) (by decide +kernel) (.nil _)) (data := [5, 6])
    (attrs := coordinates) (by simp [file]) (e := fun s => match s with | .L => 1 | .a => 1 | _ => 0) ⟨fun s => ⟨[], rfl⟩⟩ (x := 300) rfl rfl (Or.inr rfl) (by decide +kernel)
    (fun l => .ok l) (xs := [5, 6]) rfl
  have : c = true := hc.2 (by norm_num)
  subst this
  exact ⟨o, h1, att, h2, r, h3⟩

/-- The names of the members -/
example : swiftIter file ["PartType1".toList] = ["Velocities".toList, "Coordinates".toList] := by decide +kernel
example : swiftIter file [] = ["Units".toList, "Cosmology".toList, "PhysicalConstants".toList, "PartType1".toList] := by decide +kernel

/-- The value 5 is in the coordinates and 0 is not. -/
example : (match swiftSnapshot 1 sio file none with
    | .ok (.group _ att) =>
      [datasetContains pow file ["PartType1".toList, "Coordinates".toList] coordinates att 0, datasetContains pow file ["PartType1".toList, "Coordinates".toList] coordinates att 5]
    | _ => []) = [.ok true, .error .indexError] := by decide +kernel

end ExSwift

end Verif
