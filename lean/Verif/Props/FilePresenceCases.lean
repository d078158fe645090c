import Verif.Props.FilePresence

/-! Cases for C85 -/

namespace Verif
namespace ExPresence

/-- A P-Gadget3 run with snapshots 4 and 6 in two files; the second file of snapshot 6 is missing, and there is no group catalogue for it. -/
def pdirs : ListDir := fun d =>
  if d = "/run/snapdir_004".toList then some ["sim_004.0".toList, "sim_004.1".toList]
  else if d = "/run/snapdir_006".toList then some ["sim_006.0".toList]
  else if d = "/run/groups_004".toList then some ["group_tab_004.0".toList, "group_ids_004.0".toList, "subhalo_tab_004.0".toList, "subhalo_ids_004.0".toList]
  else none

def pnum : Name → Name → Except Err Int := fun f a =>
  if f = "/run/snapdir_004/sim_004.0".toList ∨ f = "/run/snapdir_006/sim_006.0".toList then (if a = "NumFilesPerSnapshot".toList then .ok 2 else .error .keyError)
  else if f = "/run/groups_004/group_tab_004.0".toList ∨ f = "/run/groups_004/group_ids_004.0".toList ∨ f = "/run/groups_004/subhalo_tab_004.0".toList ∨ f = "/run/groups_004/subhalo_ids_004.0".toList then (if a = "NTask".toList then .ok 1 else .error .keyError)
  else .error .ioError

example : checkPgadget3Run pnum pdirs "/run".toList "sim".toList 7 4 2 =
    .ok [("snapshot".toList, 1, 2), ("group_tab".toList, 1, 2), ("group_ids".toList, 1, 2), ("subhalo_tab".toList, 1, 2), ("subhalo_ids".toList, 1, 2)] := by decide +kernel

example : ∃ isnaps lines, isnaps.Nodup ∧ (∀ k, k ∈ isnaps ↔ 4 ≤ k ∧ k ≤ 7 ∧ ∃ j, k = 4 + j * 2) ∧ checkPgadget3Run pnum pdirs "/run".toList "sim".toList 7 4 2 = .ok lines ∧
    IsSummary (pgadget3Outputs "sim".toList) OutputType.key (fun _ => isnaps) (Pgadget3Complete pnum pdirs "/run".toList) lines :=
  C85_pgadget3 pnum pdirs "/run".toList (by decide) 4 7 (by decide)

/-- An EAGLE run with one snapshot and one snipshot; particle data are missing for the snapshot, and there are two directories with groups of the snipshot. -/
def edirs : ListDir := fun d =>
  if d = "/run".toList then some ["snapshot_000_z020p000".toList, "groups_000_z020p000".toList, "snipshot_000_z019p500".toList, "groups_snip_000_z019p500".toList, "groups_snip_000_z019p501".toList, "data".toList]
  else if d = "/run/snapshot_000_z020p000".toList then some ["snap_000_z020p000.0.hdf5".toList, "snap_000_z020p000.1.hdf5".toList]
  else if d = "/run/groups_000_z020p000".toList then some ["group_tab_000_z020p000.0.hdf5".toList, "eagle_subfind_tab_000_z020p000.0.hdf5".toList]
  else if d = "/run/snipshot_000_z019p500".toList then some ["snip_000_z019p500.0.hdf5".toList]
  else none

def enum : Name → Name → Except Err Int := fun f a =>
  if f = "/run/snapshot_000_z020p000/snap_000_z020p000.0.hdf5".toList then (if a = "NumFilesPerSnapshot".toList then .ok 2 else .error .ioError)
  else if f = "/run/snipshot_000_z019p500/snip_000_z019p500.0.hdf5".toList then (if a = "NumFilesPerSnapshot".toList then .ok 1 else .error .ioError)
  else if f = "/run/groups_000_z020p000/group_tab_000_z020p000.0.hdf5".toList then (if a = "NTask".toList then .ok 1 else .error .ioError)
  else if f = "/run/groups_000_z020p000/eagle_subfind_tab_000_z020p000.0.hdf5".toList then (if a = "NTask".toList then .ok 2 else .error .ioError)
  else .error .ioError

example : checkEagleRun enum edirs "/run".toList 1 1 =
    .ok [("eagle_subfind_particles".toList, 1, 1), ("eagle_subfind_tab".toList, 1, 1), ("group_snip_tab".toList, 1, 1), ("eagle_subfind_snip_particles".toList, 1, 1), ("eagle_subfind_snip_tab".toList, 1, 1)] := by decide +kernel

theorem run_dirs {dirs : List Name} (h : edirs "/run".toList = some dirs) :
    dirs = ["snapshot_000_z020p000".toList, "groups_000_z020p000".toList, "snipshot_000_z019p500".toList, "groups_snip_000_z019p500".toList, "groups_snip_000_z019p501".toList, "data".toList] := by
  have : edirs "/run".toList = some ["snapshot_000_z020p000".toList, "groups_000_z020p000".toList, "snipshot_000_z019p500".toList, "groups_snip_000_z019p500".toList, "groups_snip_000_z019p501".toList, "data".toList] := by decide +kernel
  rw [this] at h
  exact (Option.some.inj h).symm

example : ∃ lines, checkEagleRun enum edirs "/run".toList 1 1 = .ok lines ∧
    IsSummary eagleOutputs (fun o => o.2.key) (fun o => List.range (if o.1 then 1 else 1)) (fun o => EagleComplete enum edirs "/run".toList o.2) lines :=
  C85_eagle (fun dirs h => by rw [run_dirs h]; decide +kernel) (fun dirs h => by rw [run_dirs h]; decide +kernel) 1 1 (fun f a e h => by
    unfold enum at h
    split at h
    · split at h <;> cases h; rfl
    split at h
    · split at h <;> cases h; rfl
    split at h
    · split at h <;> cases h; rfl
    split at h
    · split at h <;> cases h; rfl
    cases h; rfl)

/-- A header without the attribute -/
example : checkEagleRun (fun _ _ => .error .keyError) edirs "/run".toList 1 1 = .error .keyError := by decide +kernel

def edirs1 : ListDir := fun _ => some ["snapshot_000_z020p000".toList]

example : ∃ e, checkEagleRun (fun _ _ => .error .keyError) edirs1 "/run".toList 1 0 = .error e :=
  C85_eagle_defect (listdir := edirs1) (basedir := "/run".toList) (fun dirs h => by cases h; decide) 1 0 (o := (false, ⟨"snap", "snapshot", "snap".toList, "NumFilesPerSnapshot"⟩)) List.mem_cons_self
    (isnap := 0) (by decide) (dirs := ["snapshot_000_z020p000".toList]) rfl (z := "z020p000".toList) ⟨"020".toList, "000".toList, by decide, by decide, by decide⟩ (by decide +kernel)
    (by
      intro z' _ h
      rw [List.mem_singleton] at h
      have h1 : "snapshot_000_z020p000".toList = eagleDirFor "snapshot" 0 "z020p000".toList := by decide +kernel
      rw [h1] at h
      exact List.append_cancel_left h) rfl (by decide)

end ExPresence
end Verif
