import Verif.Proofs.HashStore

/-!
The MPI hashing tool: C64 (distribution of the directories, output) and C65 (restart from the database).
-/

namespace Verif

variable {ν π η β : Type*}

section
variable [DecidableEq ν] [DecidableEq π] [DecidableEq β]

/-- **C64**: no directory is hashed more often than `os.walk` returns it, whatever the number of ranks and the timing, and whether or not `comm.send` waits for
the receiver. When rank 0 gets to the point where it writes the output, every directory has been hashed exactly once. -/
theorem C64_once (P : Nat) (o : HashOpts ν π) (hash_file : π → Option η) (con : Bool) (run : β) (cache : List (π × η)) (polls : List (ν × π) → Nat)
    (sync : Bool) (dirs : List (List (ν × π))) (st : HashStore β π η) (c : HashState (List (ν × π)) (List (π × Option η)) (HashStore β π η))
    (h : HashReach (hashTool P o hash_file con run cache polls) sync dirs st c) :
    (c.hashed.map Prod.snd).Subperm dirs ∧ (c.master = .finished → (c.hashed.map Prod.snd).Perm dirs) :=
  ⟨(stored_subperm (inv_reach (fun _ => rfl) h)).1, fun hm => (finished_complete (inv_reach (fun _ => rfl) h) hm).1⟩

/-- **C64**: the number of steps is bounded, apart from those in which rank 0 finds that no rank has sent anything, and as long as some rank is not done
one of them can make such a step, even if `comm.send` always waits for the receiver: there is no deadlock. -/
theorem C64_terminates (P : Nat) (o : HashOpts ν π) (hash_file : π → Option η) (con : Bool) (run : β) (cache : List (π × η)) (polls : List (ν × π) → Nat)
    (sync : Bool) (dirs : List (List (ν × π))) (st : HashStore β π η) (n : Nat) (c : HashState (List (ν × π)) (List (π × Option η)) (HashStore β π η))
    (h : HashRun (hashTool P o hash_file con run cache polls) sync dirs st n c) :
    n ≤ (dirs.map (fun d => 7 + 2 * polls d)).sum + 2 + 6 * (P - 1) ∧
      (¬ HashDone (hashTool P o hash_file con run cache polls) c → ∃ c', HashStep (hashTool P o hash_file con run cache polls) true c c' ∧ c' ≠ c) := by
  refine ⟨?_, fun hd => hash_progress (inv_reach (fun _ => rfl) (reach_of_run h)) hd⟩
  have h1 := run_bound (fun _ => rfl) h
  rw [start_cost] at h1
  have h2 : (hashTool P o hash_file con run cache polls).P = P := rfl
  have h3 : (hashTool P o hash_file con run cache polls).polls = polls := rfl
  rw [h2, h3] at h1
  omega

/-- **C64**: so every execution can be continued until all ranks are done. -/
theorem C64_finishes (P : Nat) (o : HashOpts ν π) (hash_file : π → Option η) (con : Bool) (run : β) (cache : List (π × η)) (polls : List (ν × π) → Nat)
    (dirs : List (List (ν × π))) (st : HashStore β π η) (n : Nat) (c : HashState (List (ν × π)) (List (π × Option η)) (HashStore β π η))
    (h : HashRun (hashTool P o hash_file con run cache polls) true dirs st n c) :
    ∃ m c', n ≤ m ∧ HashRun (hashTool P o hash_file con run cache polls) true dirs st m c' ∧ HashDone (hashTool P o hash_file con run cache polls) c' := by
  have hb := fun m c' => C64_terminates P o hash_file con run cache polls true dirs st m c'
  generalize hB : (dirs.map (fun d => 7 + 2 * polls d)).sum + 2 + 6 * (P - 1) = B at hb
  have key : ∀ k n c, B - n = k → HashRun (hashTool P o hash_file con run cache polls) true dirs st n c →
      ∃ m c', n ≤ m ∧ HashRun (hashTool P o hash_file con run cache polls) true dirs st m c' ∧ HashDone (hashTool P o hash_file con run cache polls) c' := by
    intro k
    induction k with
    | zero =>
      intro n c hk hr
      by_cases hd : HashDone (hashTool P o hash_file con run cache polls) c
      · exact ⟨n, c, Nat.le_refl n, hr, hd⟩
      · obtain ⟨c', hs, hne⟩ := (hb n c hr).2 hd
        have := (hb (n + 1) c' (.step n c c' hr hs hne)).1
        omega
    | succ k ih =>
      intro n c hk hr
      by_cases hd : HashDone (hashTool P o hash_file con run cache polls) c
      · exact ⟨n, c, Nat.le_refl n, hr, hd⟩
      · obtain ⟨c', hs, hne⟩ := (hb n c hr).2 hd
        obtain ⟨m, c'', h1, h2, h3⟩ := ih (n + 1) c' (by omega) (.step n c c' hr hs hne)
        exact ⟨m, c'', by omega, h2, h3⟩
  exact key _ n c rfl h

end

/-- **C64**: the output file lists every file to be hashed once, in increasing order, with its hash. -/
theorem C64_output [DecidableEq ν] [LinearOrder π] [DecidableEq β] (P : Nat) (o : HashOpts ν π) (hash_file : π → Option η) (con : Bool) (run : β)
    (polls : List (ν × π) → Nat) (sync : Bool) (dirs : List (List (ν × π))) (db0 : List (HashRow β π η)) (cache : List (π × η)) (db : List (HashRow β π η))
    (hopen : openDatabase con false run db0 = .ok (cache, db))
    (c : HashState (List (ν × π)) (List (π × Option η)) (HashStore β π η))
    (h : HashReach (hashTool P o hash_file con run cache polls) sync dirs ⟨[], db⟩ c) (hm : c.master = .finished) :
    IsHashList o hash_file dirs (hashLines c.store.all_hashes) := by
  have hc : cache = [] := by
    simp only [openDatabase, Bool.and_false, Bool.false_and] at hopen
    cases hopen; rfl
  subst hc
  obtain ⟨_, log, hl, hp⟩ := finished_complete (inv_reach (fun _ => rfl) h) hm
  rw [hl]
  exact output_lines hp (fun p h hc => by cases hc) con run db

/-- **C64**: there is only one list of lines as in `C64_output`, so the output does not depend on the number of ranks or on timing. -/
theorem C64_unique [LinearOrder π] (o : HashOpts ν π) (hash_file : π → Option η) (dirs : List (List (ν × π))) (l₁ l₂ : List (π × Option η))
    (h₁ : IsHashList o hash_file dirs l₁) (h₂ : IsHashList o hash_file dirs l₂) : l₁ = l₂ := by
  classical
  have hn : ∀ l : List (π × Option η), l.Pairwise (fun a b => a.1 < b.1) → l.Nodup := fun l hl => hl.imp (fun {a b} h he => by subst he; exact lt_irrefl _ h)
  have hp : l₁.Perm l₂ := (List.perm_ext_iff_of_nodup (hn _ h₁.1) (hn _ h₂.1)).2 (fun e => by
    obtain ⟨p, x⟩ := e
    rw [h₁.2, h₂.2])
  exact hp.eq_of_pairwise (fun a b _ _ hab hba => absurd (lt_trans hab hba) (lt_irrefl _)) h₁.1 h₂.1

/-- **C64**: the file written to a directory has a line for each of its files to be hashed, in increasing order of the names. -/
theorem C64_directory [LinearOrder ν] [DecidableEq π] (o : HashOpts ν π) (hash_file : π → Option η) (files : List (ν × π)) (hn : (files.map Prod.fst).Nodup) :
    (perDirLines o [] hash_file files).Pairwise (fun a b => a.1 < b.1) ∧
      ∀ name val, (name, val) ∈ perDirLines o [] hash_file files ↔ ∃ path, (name, path) ∈ files ∧ Selected o name path ∧ val = hash_file path := by
  obtain ⟨h1, h2⟩ := hashLines_spec _ (hashDirLoop_names o [] hash_file files ([], []) List.nodup_nil List.nodup_nil).1
  refine ⟨h1, fun name val => ?_⟩
  unfold perDirLines
  rw [h2, hashDirLoop_fst o [] hash_file name val files hn ([], []) (fun _ _ h => by cases h)]
  constructor
  · rintro (h | h)
    · exact h
    · cases h
  · exact Or.inl

/-- **C65**: after any sequence of runs which were stopped anywhere, the database has correct hashes of files to be hashed, none of them twice. -/
theorem C65_database [DecidableEq ν] [DecidableEq π] [DecidableEq β] (o : HashOpts ν π) (hash_file : π → Option η) (run : β) (dirs : List (List (ν × π)))
    (hd : PathsDistinct dirs) (db : List (HashRow β π η)) (h : HashCrashes o hash_file run dirs db) : RowsCorrect o hash_file run dirs db :=
  crashes_correct hd h

/-- **C65**: if such a sequence is followed by a run with `resume` that is not stopped, then the output is that of a run which was never stopped (`C64_output`,
`C64_unique`), and afterwards the database has the hash of every file which can be read, once. -/
theorem C65_resume [DecidableEq ν] [LinearOrder π] [DecidableEq β] (P : Nat) (o : HashOpts ν π) (hash_file : π → Option η) (run : β)
    (polls : List (ν × π) → Nat) (sync : Bool) (dirs : List (List (ν × π))) (hd : PathsDistinct dirs) (db0 : List (HashRow β π η))
    (hcrash : HashCrashes o hash_file run dirs db0) (cache : List (π × η)) (db : List (HashRow β π η)) (hopen : openDatabase true true run db0 = .ok (cache, db))
    (c : HashState (List (ν × π)) (List (π × Option η)) (HashStore β π η))
    (h : HashReach (hashTool P o hash_file true run cache polls) sync dirs ⟨[], db⟩ c) (hm : c.master = .finished) :
    IsHashList o hash_file dirs (hashLines c.store.all_hashes) ∧ RowsCorrect o hash_file run dirs c.store.db ∧ RowsComplete o hash_file run dirs c.store.db := by
  have h0 := crashes_correct hd hcrash
  have h2 := crashes_correct hd (.resumed P db0 cache db polls sync c hcrash hopen h)
  obtain ⟨rfl, rfl⟩ := openDatabase_resume hopen
  obtain ⟨_, log, hl, hp⟩ := finished_complete (inv_reach (fun _ => rfl) h) hm
  have hval : ∀ p h, kget (readCache run db) p = some h → hash_file p = some h :=
    fun p h hk => (h0.2 _ ((kget_readCache h0.1 p h).1 hk) rfl).2
  refine ⟨?_, h2, ?_⟩
  · rw [hl]
    exact output_lines hp hval true run db
  · rw [hl]
    have h3 := db_fold run (readCache run db) log (⟨[], db⟩ : HashStore β π η)
    have h4 := rows_complete (db := db) (run := run) hp (fun p h hk => (kget_readCache h0.1 p h).1 hk) hval
    exact h3 ▸ h4

/-- **C65**: likewise for a run from scratch: it leaves the hash of every file which can be read, once, and nothing else. -/
theorem C65_fresh [DecidableEq ν] [DecidableEq π] [DecidableEq β] (P : Nat) (o : HashOpts ν π) (hash_file : π → Option η) (run : β)
    (polls : List (ν × π) → Nat) (sync : Bool) (dirs : List (List (ν × π))) (hd : PathsDistinct dirs) (db0 : List (HashRow β π η))
    (cache : List (π × η)) (db : List (HashRow β π η)) (hopen : openDatabase true false run db0 = .ok (cache, db))
    (c : HashState (List (ν × π)) (List (π × Option η)) (HashStore β π η))
    (h : HashReach (hashTool P o hash_file true run cache polls) sync dirs ⟨[], db⟩ c) (hm : c.master = .finished) :
    RowsCorrect o hash_file run dirs c.store.db ∧ RowsComplete o hash_file run dirs c.store.db ∧ ∀ row ∈ c.store.db, row.run = run := by
  have h2 := crashes_correct hd (.first P db0 cache db polls sync c hopen h)
  obtain ⟨rfl, rfl⟩ := openDatabase_fresh hopen
  obtain ⟨_, log, hl, hp⟩ := finished_complete (inv_reach (fun _ => rfl) h) hm
  have h3 := db_fold run ([] : List (π × η)) log (⟨[], []⟩ : HashStore β π η)
  refine ⟨h2, ?_, ?_⟩
  · rw [hl]
    have h4 := rows_complete (db := []) (run := run) hp (fun p h hk => by cases hk) (fun p h hk => by cases hk)
    exact h3 ▸ h4
  · rw [hl]
    intro row hrow
    have h5 : row ∈ ([] : List (HashRow β π η)) ++ log.flatMap (newRows run []) := h3 ▸ hrow
    rw [List.nil_append] at h5
    obtain ⟨h, _, hr⟩ := List.mem_flatMap.1 h5
    exact ((mem_newRows run [] row h).1 hr).1

/-- **C65** (what the code does not do): a run cannot be resumed if it was stopped before it stored anything, or without a database:
there is an exception. Otherwise it can be resumed. -/
theorem C65_refused [DecidableEq π] [DecidableEq β] (con : Bool) (run : β) (db0 : List (HashRow β π η)) :
    (openDatabase con true run db0 = .error .other ↔ con = false ∨ ∀ row ∈ db0, row.run ≠ run) ∧
      (openDatabase con true run db0 ≠ .error .other → ∃ cache, openDatabase con true run db0 = .ok (cache, db0)) := by
  have hkeys : ∀ (db : List (HashRow β π η)) (acc : List (π × η)), db.foldl (fun acc row => if row.run = run then kset acc row.path row.hash else acc) acc = [] ↔
      acc = [] ∧ ∀ row ∈ db, row.run ≠ run := by
    intro db
    induction db with
    | nil => intro acc; simp
    | cons row db ih =>
      intro acc
      rw [List.foldl_cons, ih]
      by_cases hr : row.run = run
      · rw [if_pos hr]
        constructor
        · rintro ⟨h, _⟩
          cases acc with
          | nil => cases h
          | cons e acc =>
            obtain ⟨k, w⟩ := e
            simp only [kset] at h
            split at h <;> cases h
        · rintro ⟨_, h⟩
          exact absurd hr (h row List.mem_cons_self)
      · rw [if_neg hr]
        constructor
        · rintro ⟨h1, h2⟩
          refine ⟨h1, fun row' hm => ?_⟩
          rcases List.mem_cons.1 hm with rfl | hm
          · exact hr
          · exact h2 row' hm
        · rintro ⟨h1, h2⟩
          exact ⟨h1, fun row' hm => h2 row' (List.mem_cons_of_mem _ hm)⟩
  cases con with
  | false => simp [openDatabase]
  | true =>
    have h1 : openDatabase true true run db0 = if (readCache run db0).isEmpty then .error .other else .ok (readCache run db0, db0) := by
      simp only [openDatabase, Bool.and_self, if_true, Bool.not_true, Bool.and_false, Bool.true_and]
      rfl
    rw [h1]
    by_cases he : readCache run db0 = []
    · rw [if_pos (by rw [he]; rfl)]
      have h2 := ((hkeys db0 []).1 he).2
      exact ⟨⟨fun _ => Or.inr h2, fun _ => rfl⟩, fun h => absurd rfl h⟩
    · rw [if_neg (by rwa [List.isEmpty_iff])]
      refine ⟨⟨nofun, ?_⟩, fun _ => ⟨_, rfl⟩⟩
      rintro (h | h)
      · cases h
      · exact absurd ((hkeys db0 []).2 ⟨rfl, h⟩) he

/-! ### Examples -/

namespace ExHash

/-- Two ranks, two directories: rank 0 hashes the first one and rank 1 the second one. The state just before the result of rank 1 is stored, and the final state. -/
theorem trace {D H σ : Type} (hash : D → H) (sh : σ → Option H → σ) (d₁ d₂ : D) (st : σ) :
    (∃ c, HashReach ⟨2, hash, sh, fun _ => 1⟩ true [d₁, d₂] st c ∧ c.store = sh (sh st none) none ∧ c.hashed = [(0, d₁), (1, d₂)]) ∧
    (∃ c, HashReach ⟨2, hash, sh, fun _ => 1⟩ true [d₁, d₂] st c ∧ c.store = sh (sh (sh st none) none) (some (hash d₁))) ∧
    ∃ c, HashReach ⟨2, hash, sh, fun _ => 1⟩ true [d₁, d₂] st c ∧ c.master = .finished ∧
      c.store = sh (sh (sh (sh st none) none) (some (hash d₁))) (some (hash d₂)) := by
  have h0 : HashReach ⟨2, hash, sh, fun _ => 1⟩ true [d₁, d₂] st (hashStart [d₁, d₂] st) := .start
  have h1 := HashReach.step _ _ h0 (.send _ 1 none Nat.one_pos (Nat.lt_succ_self 1) rfl)
  have h2 := HashReach.step _ _ h1 (.request _ none rfl)
  have h3 := HashReach.step _ _ h2 (.poll _ d₁ 0 rfl)
  have h4 := HashReach.step _ _ h3 (.probe _ _ 1 none Nat.one_pos (Nat.lt_succ_self 1) rfl rfl)
  have h5 := HashReach.step _ _ h4 (.reply _ 1 (some d₂) _ rfl)
  have h6 := HashReach.step _ _ h5 (.sent _ 1 Nat.one_pos (Nat.lt_succ_self 1) rfl (fun _ => rfl))
  have h7 := HashReach.step _ _ h6 (.recv _ 1 (some d₂) Nat.one_pos (Nat.lt_succ_self 1) rfl rfl)
  have h8 := HashReach.step _ _ h7 (.replied _ 1 (some d₂) _ rfl (fun _ => rfl))
  have h9 := HashReach.step _ _ h8 (.leave _ _ rfl)
  have h10 := HashReach.step _ _ h9 (.hash0 _ d₁ rfl)
  have h11 := HashReach.step _ _ h10 (.hash _ 1 d₂ Nat.one_pos (Nat.lt_succ_self 1) rfl)
  have h12 := HashReach.step _ _ h11 (.request _ (some (hash d₁)) rfl)
  have h13 := HashReach.step _ _ h12 (.send _ 1 (some (hash d₂)) Nat.one_pos (Nat.lt_succ_self 1) rfl)
  have h14 := HashReach.step _ _ h13 (.probe _ _ 1 (some (hash d₂)) Nat.one_pos (Nat.lt_succ_self 1) rfl rfl)
  have h15 := HashReach.step _ _ h14 (.reply _ 1 none _ rfl)
  have h16 := HashReach.step _ _ h15 (.sent _ 1 Nat.one_pos (Nat.lt_succ_self 1) rfl (fun _ => rfl))
  have h17 := HashReach.step _ _ h16 (.recv _ 1 none Nat.one_pos (Nat.lt_succ_self 1) rfl rfl)
  have h18 := HashReach.step _ _ h17 (.replied _ 1 none _ rfl (fun _ => rfl))
  have h19 := HashReach.step _ _ h18 (.leave _ _ rfl)
  exact ⟨⟨_, h11, rfl, rfl⟩, ⟨_, h12, rfl⟩, ⟨_, h19, rfl, rfl⟩⟩

/-- Names and paths are numbers: the first directory has files 4 and 1, the second one the output file, 3 (not readable) and 2 (excluded). -/
def dirs : List (List (Nat × Nat)) := [[(4, 4), (1, 1)], [(9, 9), (3, 3), (2, 2)]]
def opts : HashOpts Nat Nat := ⟨some 9, some 7, some [fun p => decide (p < 10)], some [fun p => decide (p = 2)]⟩
def hashFile (p : Nat) : Option Nat := if p = 3 then none else some (100 + p)

/-- Final state of an uninterrupted run with its output and database -/
example : ∃ c, HashReach (hashTool 2 opts hashFile true 0 [] (fun _ => 1)) true dirs (⟨[], []⟩ : HashStore Nat Nat Nat) c ∧ c.master = .finished ∧
    hashLines c.store.all_hashes = [(1, some 101), (3, none), (4, some 104)] ∧ c.store.db = [⟨0, 4, 104⟩, ⟨0, 1, 101⟩] := by
  obtain ⟨_, _, c, h1, h2, h3⟩ := trace (hashDir opts [] hashFile) (storeHashes true 0 []) [(4, 4), (1, 1)] [(9, 9), (3, 3), (2, 2)] (⟨[], []⟩ : HashStore Nat Nat Nat)
  refine ⟨c, h1, h2, ?_, ?_⟩
  · rw [h3]; decide +kernel
  · rw [h3]; decide +kernel

/-- A run stopped before the second directory is stored, and before anything is stored -/
theorem stopped : HashCrashes opts hashFile 0 dirs [(⟨0, 4, 104⟩ : HashRow Nat Nat Nat), ⟨0, 1, 101⟩] := by
  obtain ⟨_, ⟨c, h1, h2⟩, _⟩ := trace (hashDir opts [] hashFile) (storeHashes true 0 []) [(4, 4), (1, 1)] [(9, 9), (3, 3), (2, 2)] (⟨[], []⟩ : HashStore Nat Nat Nat)
  have h3 := HashCrashes.first (o := opts) (hash_file := hashFile) (run := 0) (dirs := dirs) 2 [] [] [] (fun _ => 1) true c rfl h1
  rw [h2] at h3
  exact h3

example : HashCrashes opts hashFile 0 dirs ([] : List (HashRow Nat Nat Nat)) := by
  obtain ⟨⟨c, h1, h2, _⟩, _⟩ := trace (hashDir opts [] hashFile) (storeHashes true 0 []) [(4, 4), (1, 1)] [(9, 9), (3, 3), (2, 2)] (⟨[], []⟩ : HashStore Nat Nat Nat)
  have h3 := HashCrashes.first (o := opts) (hash_file := hashFile) (run := 0) (dirs := dirs) 2 [] [] [] (fun _ => 1) true c rfl h1
  rw [h2] at h3
  exact h3

/-- the second of these cannot be resumed, although a directory had been hashed -/
example : openDatabase true true 0 ([] : List (HashRow Nat Nat Nat)) = .error .other := rfl

/-- the first one can, and the resumed run may end -/
example : PathsDistinct dirs ∧ openDatabase true true 0 [(⟨0, 4, 104⟩ : HashRow Nat Nat Nat), ⟨0, 1, 101⟩] = .ok ([(4, 104), (1, 101)], [⟨0, 4, 104⟩, ⟨0, 1, 101⟩]) ∧
    ∃ c, HashReach (hashTool 2 opts hashFile true 0 [(4, 104), (1, 101)] (fun _ => 1)) true dirs (⟨[], [⟨0, 4, 104⟩, ⟨0, 1, 101⟩]⟩ : HashStore Nat Nat Nat) c ∧
      c.master = .finished ∧ hashLines c.store.all_hashes = [(1, some 101), (3, none), (4, some 104)] ∧ c.store.db = [⟨0, 4, 104⟩, ⟨0, 1, 101⟩] := by
  refine ⟨by unfold PathsDistinct; decide +kernel, rfl, ?_⟩
  obtain ⟨_, _, c, h1, h2, h3⟩ := trace (hashDir opts [(4, 104), (1, 101)] hashFile) (storeHashes true 0 [(4, 104), (1, 101)]) [(4, 4), (1, 1)] [(9, 9), (3, 3), (2, 2)]
    (⟨[], [⟨0, 4, 104⟩, ⟨0, 1, 101⟩]⟩ : HashStore Nat Nat Nat)
  refine ⟨c, h1, h2, ?_, ?_⟩
  · rw [h3]; decide +kernel
  · rw [h3]; decide +kernel

example : ([(4, 4), (1, 1)].map Prod.fst).Nodup ∧ perDirLines opts [] hashFile [(4, 4), (1, 1)] = [(1, some 101), (4, some 104)] := by decide +kernel

end ExHash

end Verif
