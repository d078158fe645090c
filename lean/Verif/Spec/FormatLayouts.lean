import Verif.Spec.Formats

/-!
Layouts of the files written by the group finders: what is stored in which order, with how many bytes per number, for `ng` groups, `ns` subhalos and `ni` particle IDs. `id` and `fl` are the bytes of a particle ID and of a floating point number.
-/

namespace Verif.Files

/-- One number -/
def one (width : Nat) (name : String) : Row := ⟨name.toList, width, [], true, none⟩

/-- `n` numbers -/
def col (width n : Nat) (name : String) : Row := ⟨name.toList, width, [n], true, none⟩

/-- `n` vectors of `m` numbers -/
def vec (width n m : Nat) (name : String) : Row := ⟨name.toList, width, [n, m], true, none⟩

/-- An attribute of the header -/
def head (width : Nat) (shape : List Nat) (name : String) (order : Bool := true) : Row := ⟨"Header/".toList ++ name.toList, width, shape, order, some ("Header".toList, name.toList)⟩

/-- Group tables of the Millennium simulation, with a histogram of `minlen` numbers -/
def lgadget2GroupTab (ng minlen : Nat) : Layout := [
  ⟨false, ["Ngroups", "Nids", "TotNgroups", "NTask"].map (one 4)⟩,
  ⟨false, [col 4 ng "GroupLen", col 4 ng "GroupOffset", one 4 "GroupMinLen"]⟩,
  ⟨false, [col 4 minlen "Count"]⟩]

def lgadget2SubTab (id ng ns : Nat) : Layout := [
  ⟨false, ["Ngroups", "Nids", "TotNgroups", "NFiles", "Nsubhalos"].map (one 4)⟩,
  ⟨false, ["NsubPerHalo", "FirstSubOfHalo"].map (col 4 ng) ++
    ["SubLen", "SubOffset", "SubParentHalo"].map (col 4 ns) ++
    ["Halo_M_Mean200", "Halo_R_Mean200", "Halo_M_Crit200", "Halo_R_Crit200", "Halo_M_TopHat200", "Halo_R_TopHat200"].map (col 4 ng) ++
    ["SubPos", "SubVel"].map (vec 4 ns 3) ++ ["SubVelDisp", "SubVmax"].map (col 4 ns) ++ [vec 4 ns 3 "SubSpin", col id ns "SubMostBoundID", col 4 ns "SubHalfMass"]⟩]

def lgadget2SubIDs (id ni : Nat) : Layout := [
  ⟨false, ["Ngroups", "Nids", "TotNgroups", "NFiles"].map (one 4)⟩,
  ⟨false, [col id ni "GroupIDs"]⟩]

/-- Millennium snapshots with `n` particles and `cells` cells of the hash table -/
def lgadget2Snapshot (n cells : Nat) : Layout := [
  ⟨true, [head 4 [6] "NumPart_ThisFile", head 8 [6] "MassTable", head 8 [] "Time", head 8 [] "Redshift", head 4 [] "Flag_Sfr", head 4 [] "Flag_Feedback", head 4 [6] "NumPart_Total",
    head 4 [] "Flag_Cooling", head 4 [] "NumFilesPerSnapshot", head 8 [] "BoxSize", head 8 [] "Omega0", head 8 [] "OmegaLambda", head 8 [] "HubbleParam",
    head 4 [] "Flag_StellarAge", head 4 [] "Flag_Metals", head 4 [] "HashTabSize", head 1 [84] "fill" false]⟩,
  ⟨true, [vec 4 n 3 "PartType1/Coordinates"]⟩, ⟨true, [vec 4 n 3 "PartType1/Velocities"]⟩, ⟨true, [col 8 n "PartType1/ParticleIDs"]⟩,
  ⟨true, [one 4 "first_hash_cell", one 4 "last_hash_cell"]⟩, ⟨true, [col 4 cells "blockid"]⟩]

def lgadget3SubTab (so shapes : Bool) (fl ng ns : Nat) : Layout := [
  ⟨false, [one 4 "Ngroups", one 8 "TotNgroups", one 4 "Nids", one 8 "TotNids", one 4 "NTask", one 4 "Nsubgroups", one 8 "TotNsubgroups"]⟩,
  ⟨false, [col 4 ng "GroupLen", col 4 ng "GroupOffset", col 8 ng "GroupNr"] ++ ["GroupCofM", "GroupVel", "GroupPos"].map (vec fl ng 3) ++
    ["Halo_M_Mean200", "Halo_M_Crit200", "Halo_M_TopHat200", "GroupVelDisp"].map (col fl ng) ++
    (if so then ["VelDisp_Mean200", "VelDisp_Crit200", "VelDisp_TopHat200"] else []).map (col fl ng) ++ ["Nsubs", "FirstSub"].map (col 4 ng) ++
    [col 4 ns "SubLen", col 4 ns "SubOffset", col 8 ns "SubGrNr", col 8 ns "SubNr"] ++ ["SubPos", "SubVel", "SubCofM", "SubSpin"].map (vec fl ns 3) ++
    ["SubVelDisp", "SubVmax", "SubRVmax", "SubHalfMass"].map (col fl ns) ++ (if shapes then ["SubShape"] else []).map (vec fl ns 6) ++
    ["SubBindingEnergy", "SubPotentialEnergy"].map (col fl ns) ++ [vec fl ns 9 "SubProfile"]⟩]

def lgadget3SubIDs (id ni : Nat) : Layout := [
  ⟨false, [one 4 "Ngroups", one 8 "TotNgroups", one 4 "Nids", one 8 "TotNids", one 4 "NTask", one 8 "NidsPrevious"]⟩,
  ⟨false, [col id ni "GroupIDs"]⟩]

def pgadget3IDs (id ni : Nat) : Layout := [
  ⟨false, [one 4 "Ngroups", one 4 "TotNgroups", one 4 "Nids", one 8 "TotNids", one 4 "NTask", one 4 "SendOffset"]⟩,
  ⟨false, [col id ni "GroupIDs"]⟩]

def pgadget3GroupTab (fl ng : Nat) : Layout := [
  ⟨false, [one 4 "Ngroups", one 4 "TotNgroups", one 4 "Nids", one 8 "TotNids", one 4 "NTask"]⟩,
  ⟨false, [col 4 ng "GroupLen", col 4 ng "GroupOffset", col fl ng "GroupMass", vec fl ng 3 "GroupCofM", vec fl ng 3 "GroupVel", vec 4 ng 6 "GroupLenType", vec fl ng 6 "GroupMassType"]⟩]

def pgadget3SubTab (so : Bool) (id fl ng ns : Nat) : Layout := [
  ⟨false, [one 4 "Ngroups", one 4 "TotNgroups", one 4 "Nids", one 8 "TotNids", one 4 "NTask", one 4 "Nsubgroups", one 4 "TotNsubgroups"]⟩,
  ⟨false, [col 4 ng "GroupLen", col 4 ng "GroupOffset", col fl ng "GroupMass", vec fl ng 3 "GroupPos"] ++
    ["Halo_M_Mean200", "Halo_R_Mean200", "Halo_M_Crit200", "Halo_R_Crit200", "Halo_M_TopHat200", "Halo_R_TopHat200"].map (col fl ng) ++
    (if so then ["VelDisp_Mean200", "VelDisp_Crit200", "VelDisp_TopHat200"] else []).map (col fl ng) ++
    [col 4 ng "ContaminationLen", col fl ng "ContaminationMass", col 4 ng "Nsubs", col 4 ng "FirstSub"] ++
    ["SubLen", "SubOffset", "SubParent"].map (col 4 ns) ++ [col fl ns "SubMass"] ++ ["SubPos", "SubVel", "SubCofM", "SubSpin"].map (vec fl ns 3) ++
    ["SubVelDisp", "SubVmax", "SubRVmax", "SubHalfMass"].map (col fl ns) ++ [col id ns "SubMostBoundID", col 4 ns "SubGrNr"]⟩]

/-- Gadget-4: every array is a record, and arrays with no groups or no subhalos are left out. -/
def gadget4SubTab (id fl ng ns : Nat) : Layout :=
  [⟨true, ["Ngroups", "Nsubgroups", "Nids", "TotNgroups", "TotNsubgroups", "TotNids", "NFiles", "padding1"].map (one 4) ++
    ["Time", "Redshift", "HubbleParam", "BoxSize", "Omega0", "OmegaLambda"].map (one 8) ++ ["flag_dp", "padding2"].map (one 4)⟩] ++
  (if ng = 0 then [] else [col 4 ng "GroupLen", col fl ng "GroupMass", vec fl ng 3 "GroupPos", vec fl ng 3 "GroupVel", vec 4 ng 6 "GroupLenType", vec fl ng 6 "GroupMassType",
    col fl ng "Halo_M_Mean200", col fl ng "Halo_R_Mean200", col fl ng "Halo_M_Crit200", col fl ng "Halo_R_Crit200", col fl ng "Halo_M_TopHat200", col fl ng "Halo_R_TopHat200",
    col 4 ng "Nsubs", col 4 ng "FirstSub"].map (fun r => ⟨true, [r]⟩)) ++
  (if ns = 0 then [] else [col 4 ns "SubLen", col fl ns "SubMass", vec fl ns 3 "SubPos", vec fl ns 3 "SubVel", vec 4 ns 6 "SubLenType", vec fl ns 6 "SubMassType", vec fl ns 3 "SubCofM", vec fl ns 3 "SubSpin",
    col fl ns "SubVelDisp", col fl ns "SubVmax", col fl ns "SubRVmax", col fl ns "SubHalfMassRad", vec fl ns 6 "SubHalfMassRadType", col fl ns "SubMassInRad", vec fl ns 6 "SubMassInRadType",
    col id ns "SubMostBoundID", col 4 ns "SubGrNr", col 4 ns "SubParent"].map (fun r => ⟨true, [r]⟩))

end Verif.Files
