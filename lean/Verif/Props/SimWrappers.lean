import Verif.Proofs.SimWrappers
import Verif.Props.Formats
import Verif.Props.FormatsCases

/-!
C92: classes for particular simulations.
-/

namespace Verif

/-- C92: a call with the right arguments gives every parameter its value and the remaining arguments to `*args`; any other call is a TypeError. -/
theorem C92_bind (sig : Signature) (hs : (sig.params.map (·.1)).Nodup) (c : PyCall) :
    (sig.Accepts c → ∃ env, bindCall sig c = .ok (env, c.pos.drop sig.params.length) ∧ env.map (·.1) = sig.params.map (·.1) ∧ ∀ n v, (n, v) ∈ env → sig.Gives c n v) ∧
    (¬sig.Accepts c → bindCall sig c = .error .typeError) := by
  have hdrop : (c.pos.drop (sig.params.map (·.1)).length ≠ [] ∧ sig.varargs = false) ↔ ¬(c.pos.length ≤ sig.params.length ∨ sig.varargs = true) := by
    rw [List.length_map, Ne, List.drop_eq_nil_iff]
    cases sig.varargs <;> simp
  have hkeys : ((sig.params.map (·.1)).zip c.pos).map (·.1) = (sig.params.map (·.1)).take c.pos.length := zip_names _ _
  constructor
  · intro h
    have hkw := bindKeywords_ok (sig.params.map (·.1)) c.kw ((sig.params.map (·.1)).zip c.pos) h.known h.once (by rw [hkeys]; exact h.free)
    have henv : (((sig.params.map (·.1)).zip c.pos ++ c.kw).map (·.1)).Nodup := by
      rw [List.map_append, hkeys, List.nodup_append]
      refine ⟨hs.sublist (List.take_sublist _ _), h.once, ?_⟩
      rintro a ha b hb rfl
      obtain ⟨k, hk, rfl⟩ := List.mem_map.1 hb
      exact h.free k hk ha
    obtain ⟨l, hl, hm, hv⟩ := bindDefaults_ok ((sig.params.map (·.1)).zip c.pos ++ c.kw) sig.params (by
      intro n hn
      rw [List.map_append, hkeys, List.mem_append]
      obtain ⟨i, hi⟩ := List.mem_iff_getElem?.1 hn
      rcases h.given i n hi with h1 | h1
      · exact Or.inl ((take_iff hs (by rw [List.getElem?_map, hi]; rfl)).2 h1)
      · exact Or.inr h1)
    refine ⟨l, ?_, hm, ?_⟩
    · unfold bindCall
      simp only []
      rw [if_neg (by rw [hdrop, not_not]; exact h.pos), hkw]
      simp only []
      rw [hl]
      simp only [List.length_map]
    · intro n v hin
      rcases hv n v hin with h1 | ⟨h1, h2⟩
      · rcases List.mem_append.1 (mem_of_boundValue h1) with h2 | h2
        · exact Or.inl (mem_zip_iff.1 h2)
        · exact Or.inr (Or.inl h2)
      · refine Or.inr (Or.inr ?_)
        have : n ∉ ((sig.params.map (·.1)).zip c.pos ++ c.kw).map (·.1) := by
          rw [← boundValue_isSome, h1]; simp
        rw [List.map_append, hkeys, List.mem_append, not_or] at this
        exact ⟨this.1, this.2, h2⟩
  · intro h
    unfold bindCall
    simp only []
    by_cases h1 : c.pos.length ≤ sig.params.length ∨ sig.varargs = true
    · rw [if_neg (by rw [hdrop, not_not]; exact h1)]
      by_cases h2 : (∀ k ∈ c.kw, k.1 ∈ sig.params.map (·.1)) ∧ (c.kw.map (·.1)).Nodup ∧ ∀ k ∈ c.kw, k.1 ∉ ((sig.params.map (·.1)).zip c.pos).map (·.1)
      · rw [bindKeywords_ok _ _ _ h2.1 h2.2.1 h2.2.2]
        simp only []
        have : ∃ n, (n, none) ∈ sig.params ∧ n ∉ ((sig.params.map (·.1)).zip c.pos ++ c.kw).map (·.1) := by
          by_contra hno
          apply h
          refine ⟨h1, h2.1, h2.2.1, by rw [← hkeys]; exact h2.2.2, ?_⟩
          intro i n hi
          by_contra hnot
          rw [not_or] at hnot
          apply hno
          refine ⟨n, List.mem_iff_getElem?.2 ⟨i, hi⟩, ?_⟩
          rw [List.map_append, hkeys, List.mem_append, not_or]
          exact ⟨fun hm => hnot.1 ((take_iff hs (by rw [List.getElem?_map, hi]; rfl)).1 hm), hnot.2⟩
        obtain ⟨n, hn, hne⟩ := this
        rw [bindDefaults_error _ _ hn hne]
      · rw [bindKeywords_error _ _ _ h2]
    · rw [if_pos (hdrop.2 h1)]

/-- The classes which pass each parameter on to one of the same name -/
structure SimClass.Faithful (cls : SimClass) : Prop where
  sig : (cls.sig.params.map (·.1)).Nodup
  base : (cls.base.params.map (·.1)).Nodup
  all : cls.sig.params.map (·.1) = cls.base.params.map (·.1)
  names : ∀ n ∈ cls.pos ++ cls.kw, n ∈ cls.base.params.map (·.1)
  cover : ∀ n ∈ cls.base.params.map (·.1), n ∈ cls.pos ++ cls.kw
  pos : cls.pos = (cls.base.params.map (·.1)).take cls.pos.length
  once : (cls.pos ++ cls.kw).Nodup

instance (cls : SimClass) : Decidable cls.Faithful :=
  decidable_of_iff ((cls.sig.params.map (·.1)).Nodup ∧ (cls.base.params.map (·.1)).Nodup ∧ cls.sig.params.map (·.1) = cls.base.params.map (·.1) ∧
    (∀ n ∈ cls.pos ++ cls.kw, n ∈ cls.base.params.map (·.1)) ∧ (∀ n ∈ cls.base.params.map (·.1), n ∈ cls.pos ++ cls.kw) ∧
    cls.pos = (cls.base.params.map (·.1)).take cls.pos.length ∧ (cls.pos ++ cls.kw).Nodup)
    ⟨fun ⟨a, b, c, d, e, f, g⟩ => ⟨a, b, c, d, e, f, g⟩, fun ⟨a, b, c, d, e, f, g⟩ => ⟨a, b, c, d, e, f, g⟩⟩

/-- C92: a class which passes on each of its parameters gives the base class the same values for them; calls with wrong arguments are a TypeError. -/
theorem C92_forward (cls : SimClass) (hf : cls.Faithful) (c : PyCall) :
    (cls.sig.Accepts c → ∃ env, cls.construct c = .ok (env, []) ∧ env.map (·.1) = cls.sig.params.map (·.1) ∧ ∀ n v, (n, v) ∈ env → cls.sig.Gives c n v) ∧
    (¬cls.sig.Accepts c → cls.construct c = .error .typeError) := by
  constructor
  · intro h
    obtain ⟨env, he, hm, hv⟩ := (C92_bind cls.sig hf.sig c).1 h
    have hnd : (env.map (·.1)).Nodup := by rw [hm]; exact hf.sig
    have hval : ∀ n ∈ cls.base.params.map (·.1), ∃ v, boundValue env n = some v := by
      intro n hn
      apply Option.isSome_iff_exists.1
      rw [boundValue_isSome, hm, hf.all]
      exact hn
    have hkw : (cls.forward env).kw.map (·.1) = cls.kw := by
      unfold SimClass.forward
      rw [List.map_map]
      show cls.kw.map (fun n => n) = _
      rw [List.map_id']
    have hpl : (cls.forward env).pos.length = cls.pos.length := by
      unfold SimClass.forward; rw [List.length_map]
    have hple : cls.pos.length ≤ cls.base.params.length := by
      have := congrArg List.length hf.pos
      rw [List.length_take, List.length_map] at this
      omega
    have hacc : cls.base.Accepts (cls.forward env) := by
      refine ⟨Or.inl (by omega), ?_, ?_, ?_, ?_⟩
      · intro k hk
        exact hf.names _ (List.mem_append_right _ (hkw ▸ List.mem_map_of_mem (f := (·.1)) hk))
      · rw [hkw]; exact (List.nodup_append.1 hf.once).2.1
      · intro k hk hin
        rw [hpl, ← hf.pos] at hin
        exact (List.nodup_append.1 hf.once).2.2 k.1 hin k.1 (hkw ▸ List.mem_map_of_mem (f := (·.1)) hk) rfl
      · intro i n hi
        have hn : (cls.base.params.map (·.1))[i]? = some n := by rw [List.getElem?_map, hi]; rfl
        rcases List.mem_append.1 (hf.cover n (List.mem_iff_getElem?.2 ⟨i, hn⟩)) with h1 | h1
        · left
          rw [hpl]
          rw [hf.pos] at h1
          exact (take_iff hf.base hn).1 h1
        · right; rw [hkw]; exact h1
    obtain ⟨env', he', hm', hv'⟩ := (C92_bind cls.base hf.base (cls.forward env)).1 hacc
    refine ⟨env', ?_, by rw [hm', hf.all], ?_⟩
    · unfold SimClass.construct
      rw [he]
      simp only []
      rw [he', List.drop_eq_nil_of_le (by omega)]
    · intro n v hin
      have hn : n ∈ cls.base.params.map (·.1) := hm' ▸ List.mem_map_of_mem (f := (·.1)) hin
      obtain ⟨w, hw⟩ := hval n hn
      have hvw : v = w := by
        rcases hv' n v hin with ⟨i, h1, h2⟩ | h1 | ⟨h1, h2, h3⟩
        · unfold SimClass.forward at h2
          dsimp only at h2
          rw [List.getElem?_map, Option.map_eq_some_iff] at h2
          obtain ⟨m, h3, h4⟩ := h2
          have : m = n := by
            rw [hf.pos, List.getElem?_take] at h3
            split at h3
            · rw [h1] at h3; cases h3; rfl
            · cases h3
          subst this
          rw [hw] at h4
          exact h4.symm
        · unfold SimClass.forward at h1
          obtain ⟨m, h3, h4⟩ := List.mem_map.1 h1
          cases h4
          rw [hw]; rfl
        · exfalso
          rcases List.mem_append.1 (hf.cover n hn) with h4 | h4
          · rw [hpl, ← hf.pos] at h1; exact h1 h4
          · rw [hkw] at h2; exact h2 h4
      subst hvw
      exact hv n v (mem_of_boundValue hw)
  · intro h
    unfold SimClass.construct
    rw [(C92_bind cls.sig hf.sig c).2 h]

/-- C92: all classes of millennium.py, millennium2.py and coco.py which have a constructor of their own pass on their parameters. -/
theorem C92_classes : ∀ cls ∈ [idBytesClass, millennium2SubTab, millennium2Catalogue, millennium2Snapshot, cocoSnapshot, cocoCatalogue], cls.Faithful := by decide +kernel

/-- C92, a defect: no file can be opened with the class `SubTabFile` for the Millennium-XXL simulation. It passes parameters which the base class does not have, so that every call is a TypeError. -/
theorem C92_mxxl_defect (c : PyCall) (s : Bool) (file : List Byte) : mxxlSubTab.openFile lgadget3Init c s file = .error .typeError := by
  have : mxxlSubTab.construct c = .error .typeError := by
    unfold SimClass.construct
    by_cases h : mxxlSubTab.sig.Accepts c
    · obtain ⟨env, he, -⟩ := (C92_bind mxxlSubTab.sig (by decide +kernel) c).1 h
      rw [he]
      dsimp only
      apply (C92_bind mxxlSubTab.base (by decide +kernel) _).2
      intro hacc
      have : "SO_BAR_INFO" ∈ mxxlSubTab.base.params.map (·.1) := hacc.known ("SO_BAR_INFO", (boundValue env "SO_BAR_INFO").getD .none) (List.mem_map.2 ⟨"SO_BAR_INFO", by decide +kernel, rfl⟩)
      exact absurd this (by decide +kernel)
    · rw [(C92_bind mxxlSubTab.sig (by decide +kernel) c).2 h]
  unfold SimClass.openFile
  rw [this]

/-- A call gives a parameter one value. -/
theorem gives_unique (sig : Signature) (hs : (sig.params.map (·.1)).Nodup) {c : PyCall} (h : sig.Accepts c) {n : String} {v w : PyVal} (hv : sig.Gives c n v) (hw : sig.Gives c n w) : v = w := by
  have hpos : ∀ x, (∃ i : Nat, (sig.params.map (·.1))[i]? = some n ∧ c.pos[i]? = some x) → n ∈ (sig.params.map (·.1)).take c.pos.length := by
    rintro x ⟨i, h1, h2⟩
    exact (take_iff hs h1).2 (List.getElem?_eq_some_iff.1 h2).1
  have hkw : ∀ x, (n, x) ∈ c.kw → n ∉ (sig.params.map (·.1)).take c.pos.length := fun x hx => h.free _ hx
  rcases hv with hv | hv | ⟨hv1, hv2, hv3⟩ <;> rcases hw with hw | hw | ⟨hw1, hw2, hw3⟩
  · obtain ⟨i, h1, h2⟩ := hv
    obtain ⟨j, h3, h4⟩ := hw
    have hi := (List.getElem?_eq_some_iff.1 h1).1
    have hj := (List.getElem?_eq_some_iff.1 h3).1
    have := (List.Nodup.getElem_inj_iff hs (hi := hi) (hj := hj)).1 (by rw [(List.getElem?_eq_some_iff.1 h1).2, (List.getElem?_eq_some_iff.1 h3).2])
    subst this
    rw [h2] at h4
    cases h4; rfl
  · exact absurd (hpos _ hv) (hkw _ hw)
  · exact absurd (hpos _ hv) hw1
  · exact absurd (hpos _ hw) (hkw _ hv)
  · have h1 := boundValue_of_mem h.once hv
    rw [boundValue_of_mem h.once hw] at h1
    cases h1; rfl
  · exact absurd (List.mem_map_of_mem (f := (·.1)) hv) hw2
  · exact absurd (hpos _ hw) hv1
  · exact absurd (List.mem_map_of_mem (f := (·.1)) hw) hv2
  · have h1 := find_of_mem sig.params hs hv3
    rw [find_of_mem sig.params hs hw3] at h1
    cases h1; rfl

/-- The value of a parameter of the base class -/
theorem construct_value (cls : SimClass) (hf : cls.Faithful) {c : PyCall} (h : cls.sig.Accepts c) :
    ∃ env, cls.construct c = .ok (env, []) ∧ ∀ n ∈ cls.sig.params.map (·.1), ∀ v, cls.sig.Gives c n v → boundValue env n = some v := by
  obtain ⟨env, he, hm, hv⟩ := (C92_forward cls hf c).1 h
  refine ⟨env, he, ?_⟩
  intro n hn v hg
  have : (boundValue env n).isSome = true := by rw [boundValue_isSome, hm]; exact hn
  obtain ⟨w, hw⟩ := Option.isSome_iff_exists.1 this
  rw [hw, gives_unique cls.sig hf.sig h hg (hv n w (mem_of_boundValue hw))]

theorem readBy_of {C : Content} {L : Layout} {o o' : Bool → List Byte → Except Err BFile} (h : L.ReadBy C o) (ho : ∀ s file f, o s file = .ok f → o' s file = .ok f) : L.ReadBy C o' := by
  intro s big rest
  obtain ⟨f, h1, h2⟩ := h s big rest
  exact ⟨f, ho _ _ _ h1, h2⟩

theorem bytesOf_ok {env : List (String × PyVal)} {n : String} {k : Nat} (hk : k = 4 ∨ k = 8) (h : boundValue env n = some (.int k)) : bytesOf env n = .ok k := by
  unfold bytesOf
  rw [h]
  rcases hk with rfl | rfl <;> rfl

/-- The classes with the one parameter for the size of particle IDs -/
theorem lgadget2Init_reads {C : Content} {L : Layout} {F : Nat → Format} {id : Nat} (hid : id = 4 ∨ id = 8) (hF : ∀ s file, (F 8).open s file = (F id).open s file)
    (h : L.ReadBy C (fun s file => (F id).parse s file)) {c : PyCall} (hc : idBytesClass.sig.Accepts c) (hg : idBytesClass.sig.Gives c "id_bytes" (.int id)) :
    L.ReadBy C (idBytesClass.openFile (lgadget2Init F) c) := by
  obtain ⟨env, he, hv⟩ := construct_value idBytesClass (C92_classes _ (by simp)) hc
  refine readBy_of h ?_
  intro s file f hp
  unfold SimClass.openFile
  rw [he]
  dsimp only
  unfold lgadget2Init
  rw [hF, bytesOf_ok hid (hv _ (by decide +kernel) _ hg)]
  cases ho : (F id).open s file with
  | error e => unfold Format.parse at hp; rw [ho] at hp; cases hp
  | ok f' => exact hp

/-- C92: the classes for the Millennium simulation read sub_tab files with IDs of the size given, in either byte order. -/
theorem C92_millennium_sub_tab (C : Content) (id ng ns : Nat) (hid : id = 4 ∨ id = 8) (h1 : scalarInt C "Ngroups".toList = ng) (h2 : scalarInt C "Nsubhalos".toList = ns) (hn : FileCount C "NFiles")
    (hfit : (Files.lgadget2SubTab id ng ns).Fits C) {c : PyCall} (hc : idBytesClass.sig.Accepts c) (hg : idBytesClass.sig.Gives c "id_bytes" (.int id)) :
    (Files.lgadget2SubTab id ng ns).ReadBy C (idBytesClass.openFile (lgadget2Init lgadget2SubTab) c) :=
  lgadget2Init_reads hid (fun _ _ => rfl) (C69_lgadget2_sub_tab C id ng ns hid h1 h2 hn hfit) hc hg

/-- C92: likewise for sub_ids files -/
theorem C92_millennium_sub_ids (C : Content) (id ni : Nat) (hid : id = 4 ∨ id = 8) (h1 : scalarInt C "Nids".toList = ni) (hn : FileCount C "NFiles")
    (hfit : (Files.lgadget2SubIDs id ni).Fits C) {c : PyCall} (hc : idBytesClass.sig.Accepts c) (hg : idBytesClass.sig.Gives c "id_bytes" (.int id)) :
    (Files.lgadget2SubIDs id ni).ReadBy C (idBytesClass.openFile (lgadget2Init lgadget2SubIDs) c) :=
  lgadget2Init_reads hid (fun _ _ => rfl) (C69_lgadget2_sub_ids C id ni hid h1 hn hfit) hc hg

/-- C92: the class for COCO reads sub_tab files of Gadget-4. -/
theorem C92_coco_sub_tab (C : Content) (id fl ng ns : Nat) (hid : id = 4 ∨ id = 8) (hfl : fl = if scalarInt C "flag_dp".toList = 0 then 4 else 8) (h1 : scalarInt C "Ngroups".toList = ng)
    (h2 : scalarInt C "Nsubgroups".toList = ns) (hfit : (Files.gadget4SubTab id fl ng ns).Fits C) {c : PyCall} (hc : idBytesClass.sig.Accepts c)
    (hg : idBytesClass.sig.Gives c "id_bytes" (.int id)) : (Files.gadget4SubTab id fl ng ns).ReadBy C (idBytesClass.openFile gadget4Init c) := by
  obtain ⟨env, he, hv⟩ := construct_value idBytesClass (C92_classes _ (by simp)) hc
  refine readBy_of (C69_gadget4_sub_tab C id fl ng ns hid hfl h1 h2 hfit) ?_
  intro s file f hp
  unfold SimClass.openFile
  rw [he]
  dsimp only
  unfold gadget4Init
  rw [bytesOf_ok hid (hv _ (by decide +kernel) _ hg)]
  exact hp

theorem truthy_false {v : PyVal} : v.truthy = false ↔ v.Falsy := by
  unfold PyVal.Falsy
  cases v <;> simp [PyVal.truthy]

theorem truthy_true {v : PyVal} : v.truthy = true ↔ ¬ v.Falsy := by
  rw [← truthy_false]
  cases v.truthy <;> decide

/-- C92: the class for Millennium-II reads sub_tab files with the flag and the sizes given, unless one of the formats which are not implemented is asked for. -/
theorem C92_millennium2_sub_tab (C : Content) (so : Bool) (id fl ng ns : Nat) (hid : id = 4 ∨ id = 8) (hfl : fl = 4 ∨ fl = 8) (h1 : scalarInt C "Ngroups".toList = ng)
    (h2 : scalarInt C "Nsubgroups".toList = ns) (hn : FileCount C "NTask") (hfit : (Files.pgadget3SubTab so id fl ng ns).Fits C) {c : PyCall} (hc : millennium2SubTab.sig.Accepts c)
    {vso vbar vsnap : PyVal} (hso : millennium2SubTab.sig.Gives c "SO_VEL_DISPERSIONS" vso) (hso' : vso.Falsy ↔ so = false) (hbar : millennium2SubTab.sig.Gives c "SO_BAR_INFO" vbar)
    (hbar' : vbar.Falsy) (hsnap : millennium2SubTab.sig.Gives c "WRITE_SUB_IN_SNAP_FORMAT" vsnap) (hsnap' : vsnap.Falsy)
    (hgid : millennium2SubTab.sig.Gives c "id_bytes" (.int id)) (hgfl : millennium2SubTab.sig.Gives c "float_bytes" (.int fl)) :
    (Files.pgadget3SubTab so id fl ng ns).ReadBy C (millennium2SubTab.openFile pgadget3Init c) := by
  obtain ⟨env, he, hv⟩ := construct_value millennium2SubTab (C92_classes _ (by simp)) hc
  refine readBy_of (C69_pgadget3_sub_tab C so id fl ng ns hid hfl h1 h2 hn hfit) ?_
  intro s file f hp
  unfold SimClass.openFile
  rw [he]
  dsimp only
  unfold pgadget3Init
  rw [hv _ (by decide +kernel) _ hsnap, hv _ (by decide +kernel) _ hbar, hv _ (by decide +kernel) _ hso, bytesOf_ok hid (hv _ (by decide +kernel) _ hgid),
    bytesOf_ok hfl (hv _ (by decide +kernel) _ hgfl)]
  rw [if_neg (by show ¬vsnap.truthy = true; rw [truthy_false.2 hsnap']; decide), if_neg (by show ¬vbar.truthy = true; rw [truthy_false.2 hbar']; decide)]
  have hso2 : vso.truthy = so := by
    cases so with
    | false => exact truthy_false.2 (hso'.2 rfl)
    | true => exact truthy_true.2 (fun h => by cases hso'.1 h)
  subst hso2
  exact hp

/-- C92: sizes other than 4 and 8 are a ValueError for Millennium-II and COCO, and the formats which are not implemented are a NotImplementedError. -/
theorem C92_refused (s : Bool) (file : List Byte) :
    (∀ (c : PyCall) (v : PyVal), idBytesClass.sig.Accepts c → idBytesClass.sig.Gives c "id_bytes" v → v.eqInt 4 = false → v.eqInt 8 = false →
      idBytesClass.openFile gadget4Init c s file = .error .valueError) ∧
    (∀ (c : PyCall) (v : PyVal), millennium2SubTab.sig.Accepts c → millennium2SubTab.sig.Gives c "WRITE_SUB_IN_SNAP_FORMAT" v ∨ millennium2SubTab.sig.Gives c "SO_BAR_INFO" v → ¬ v.Falsy →
      millennium2SubTab.openFile pgadget3Init c s file = .error .other) := by
  constructor
  · intro c v hc hg h4 h8
    obtain ⟨env, he, hv⟩ := construct_value idBytesClass (C92_classes _ (by simp)) hc
    unfold SimClass.openFile
    rw [he]
    dsimp only
    unfold gadget4Init bytesOf
    rw [hv _ (by decide +kernel) _ hg]
    dsimp only [Option.getD_some]
    rw [h4, h8]
    rfl
  · intro c v hc hg ht
    replace ht := truthy_true.2 ht
    obtain ⟨env, he, hv⟩ := construct_value millennium2SubTab (C92_classes _ (by simp)) hc
    unfold SimClass.openFile
    rw [he]
    dsimp only
    unfold pgadget3Init
    rcases hg with hg | hg
    · rw [hv _ (by decide +kernel) _ hg, if_pos (show ((some v).getD .none).truthy = true from ht)]
    · split
      · rfl
      · rw [hv _ (by decide +kernel) _ hg, if_pos (show ((some v).getD .none).truthy = true from ht)]

namespace ExSims

/-- `SubTabFile(fname)` and `SubTabFile(fname, 4)`, `SubTabFile(id_bytes=4, fname=fname)` -/
example : idBytesClass.construct ⟨[.str "f"], []⟩ = .ok ([("fname", .str "f"), ("id_bytes", .int 8)], []) := by decide +kernel
example : idBytesClass.construct ⟨[.str "f", .int 4], []⟩ = .ok ([("fname", .str "f"), ("id_bytes", .int 4)], []) := by decide +kernel
example : idBytesClass.construct ⟨[], [("id_bytes", .int 4), ("fname", .str "f")]⟩ = .ok ([("fname", .str "f"), ("id_bytes", .int 4)], []) := by decide +kernel
/-- Wrong calls -/
example : [(⟨[], []⟩ : PyCall), ⟨[.str "f", .int 4, .int 5], []⟩, ⟨[.str "f"], [("fname", .str "g")]⟩, ⟨[.str "f"], [("float_bytes", .int 8)]⟩].map idBytesClass.construct =
    List.replicate 4 (.error .typeError) := by decide +kernel

example : millennium2Catalogue.construct ⟨[.str "d", .int 67], [("SO_VEL_DISPERSIONS", .bool true)]⟩ =
    .ok ([("basedir", .str "d"), ("isnap", .int 67), ("datasets", .none), ("SO_VEL_DISPERSIONS", .bool true), ("SO_BAR_INFO", .bool false), ("WRITE_SUB_IN_SNAP_FORMAT", .bool false),
      ("id_bytes", .int 8), ("float_bytes", .int 4)], []) := by decide +kernel

/-- The default of the class for the Millennium simulation are IDs of 8 bytes. -/
theorem accepts : idBytesClass.sig.Accepts ⟨[.str "f"], []⟩ where
  pos := Or.inl (by decide)
  known := fun _ h => by cases h
  once := List.nodup_nil
  free := fun _ h => by cases h
  given := by
    intro i n h
    match i, h with
    | 0, h => exact Or.inl (by decide)
    | 1, h => cases h

theorem gives : idBytesClass.sig.Gives ⟨[.str "f"], []⟩ "id_bytes" (.int 8) := Or.inr (Or.inr ⟨by decide, by decide, by decide⟩)

example : (Files.lgadget2SubTab 8 2 3).ReadBy exSubTab (idBytesClass.openFile (lgadget2Init lgadget2SubTab) ⟨[.str "f"], []⟩) :=
  C92_millennium_sub_tab exSubTab 8 2 3 (Or.inr rfl) (by decide +kernel) (by decide +kernel) (by constructor <;> decide +kernel) (Layout.fits_of _ _ (by decide +kernel)) accepts gives

end ExSims

end Verif
