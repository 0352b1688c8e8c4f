import Verif.Props.GroupExample
import Verif.Props.PassbandGroupFiles

/-!
# A group made of a passband and of the parameters of another: a case that meets the hypotheses of C115
-/

namespace LCL.GroupFileExample
open LCL LCL.PassbandGroupProps LCL.PbFiles LCL.PbFilesSpec LCL.PbFilesProps LCL.PassbandShareProps LCL.GroupExample

/-- A disk with one transmission file. -/
def disk : Disk ℚ := ⟨[(["data".toList, "b.dat".toList], .text [[300, 1], [400, 1], [600, 1]])], []⟩

/-- The passband `s_b` of that file, neither resampled nor trimmed; the units are left to the group. -/
def entry : PbParams ℚ :=
  { survey := some "s".toList, filter := some "b".toList, delta := some none, trim := some none, path := some (some ⟨true, ["data".toList, "b.dat".toList]⟩) }

example : ∃ pb, groupInit (fun _ => none) ⟨true, []⟩ disk [.obj coarse, .params entry] none { units := some "A" } = .ok (both pb, disk) ∧
    Passband.init rows2 "s".toList "b".toList none none "A" = .ok pb := by
  obtain ⟨pb, hi, h1, h2, h3⟩ := red_init
  have hf : fromFile (fun _ => none) ⟨true, []⟩ disk "s".toList "b".toList
      { delta := none, trim := none, path := some ⟨true, ["data".toList, "b.dat".toList]⟩, units := "A" } =
      keeping disk (Passband.init rows2 "s".toList "b".toList none none "A") :=
    C111_from_file _ _ _ _ _ _ (c := .text [[300, 1], [400, 1], [600, 1]]) rfl rfl (Or.inl ⟨by unfold AsciiName; decide, rfl, rfl⟩) (by decide) (Or.inr rfl)
      (by unfold Increasing; decide)
  refine ⟨pb, ?_, hi⟩
  have hp : fromParams (fun _ => none) ⟨true, []⟩ disk (entry.fill { units := some "A" }) = .ok (pb, disk) := by
    have : fromParams (fun _ => none) ⟨true, []⟩ disk (entry.fill { units := some "A" }) = fromFile (fun _ => none) ⟨true, []⟩ disk "s".toList "b".toList
      { delta := none, trim := none, path := some ⟨true, ["data".toList, "b.dat".toList]⟩, units := "A" } := rfl
    rw [this, hf]
    have hi' : Passband.init rows2 "s".toList "b".toList none none "A" = .ok pb := hi
    rw [hi']
    rfl
  unfold groupInit
  rw [if_neg (by simp)]
  simp only [loadAll, hp]
  have hb := both_init h1 h2 h3
  rw [hb]

end LCL.GroupFileExample
