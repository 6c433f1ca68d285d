import Verif.Shipped.Verify1
import Verif.Shipped.Verify2
import Verif.Shipped.Verify3
import Verif.Shipped.Verify4
import Verif.Shipped.Verify5
import Verif.Shipped.Verify6
import Verif.Shipped.Verify7
import Verif.Shipped.Verify8

/-!
# All shipped ideal gases

Generated by `tools/shipped.py`; do not edit.
-/

namespace PyroMat.Shipped

open PyroMat.Shipped.Data

/-- The data files of `/repo/src/pyromat/data/ig` and `ig2` (982 files). -/
def shipped : List File :=
  List.flatten [gases1, gases2, gases3, gases4, gases5, gases6, gases7, gases8, gases9, gases10, gases11, gases12, gases13, gases14, gases15, gases16, gases17, gases18, gases19, gases20, gases21, gases22, gases23, gases24, gases25, gases26, gases27, gases28, gases29, gases30, gases31, gases32, gases33, gases34, gases35, gases36, gases37, gases38, gases39, gases40, gases41, gases42, gases43, gases44, gases45, gases46, gases47, gases48, gases49, gases50, gases51, gases52, gases53, gases54, gases55, gases56, gases57, gases58, gases59, gases60, gases61, gases62]

/-- Every file passes the checks, with the bounds given for it. -/
theorem shipped_checked : ∀ f ∈ shipped, ∃ b, check f b = true := by
  intro f hf
  simp only [shipped, List.mem_flatten, List.mem_cons, List.not_mem_nil, or_false] at hf
  obtain ⟨l, hl, hf⟩ := hf
  rcases hl with rfl | rfl | rfl | rfl | rfl | rfl | rfl | rfl | rfl | rfl | rfl | rfl | rfl | rfl | rfl | rfl | rfl | rfl | rfl | rfl | rfl | rfl | rfl | rfl | rfl | rfl | rfl | rfl | rfl | rfl | rfl | rfl | rfl | rfl | rfl | rfl | rfl | rfl | rfl | rfl | rfl | rfl | rfl | rfl | rfl | rfl | rfl | rfl | rfl | rfl | rfl | rfl | rfl | rfl | rfl | rfl | rfl | rfl | rfl | rfl | rfl | rfl
  · exact checkAll_spec _ _ checked1 f hf
  · exact checkAll_spec _ _ checked2 f hf
  · exact checkAll_spec _ _ checked3 f hf
  · exact checkAll_spec _ _ checked4 f hf
  · exact checkAll_spec _ _ checked5 f hf
  · exact checkAll_spec _ _ checked6 f hf
  · exact checkAll_spec _ _ checked7 f hf
  · exact checkAll_spec _ _ checked8 f hf
  · exact checkAll_spec _ _ checked9 f hf
  · exact checkAll_spec _ _ checked10 f hf
  · exact checkAll_spec _ _ checked11 f hf
  · exact checkAll_spec _ _ checked12 f hf
  · exact checkAll_spec _ _ checked13 f hf
  · exact checkAll_spec _ _ checked14 f hf
  · exact checkAll_spec _ _ checked15 f hf
  · exact checkAll_spec _ _ checked16 f hf
  · exact checkAll_spec _ _ checked17 f hf
  · exact checkAll_spec _ _ checked18 f hf
  · exact checkAll_spec _ _ checked19 f hf
  · exact checkAll_spec _ _ checked20 f hf
  · exact checkAll_spec _ _ checked21 f hf
  · exact checkAll_spec _ _ checked22 f hf
  · exact checkAll_spec _ _ checked23 f hf
  · exact checkAll_spec _ _ checked24 f hf
  · exact checkAll_spec _ _ checked25 f hf
  · exact checkAll_spec _ _ checked26 f hf
  · exact checkAll_spec _ _ checked27 f hf
  · exact checkAll_spec _ _ checked28 f hf
  · exact checkAll_spec _ _ checked29 f hf
  · exact checkAll_spec _ _ checked30 f hf
  · exact checkAll_spec _ _ checked31 f hf
  · exact checkAll_spec _ _ checked32 f hf
  · exact checkAll_spec _ _ checked33 f hf
  · exact checkAll_spec _ _ checked34 f hf
  · exact checkAll_spec _ _ checked35 f hf
  · exact checkAll_spec _ _ checked36 f hf
  · exact checkAll_spec _ _ checked37 f hf
  · exact checkAll_spec _ _ checked38 f hf
  · exact checkAll_spec _ _ checked39 f hf
  · exact checkAll_spec _ _ checked40 f hf
  · exact checkAll_spec _ _ checked41 f hf
  · exact checkAll_spec _ _ checked42 f hf
  · exact checkAll_spec _ _ checked43 f hf
  · exact checkAll_spec _ _ checked44 f hf
  · exact checkAll_spec _ _ checked45 f hf
  · exact checkAll_spec _ _ checked46 f hf
  · exact checkAll_spec _ _ checked47 f hf
  · exact checkAll_spec _ _ checked48 f hf
  · exact checkAll_spec _ _ checked49 f hf
  · exact checkAll_spec _ _ checked50 f hf
  · exact checkAll_spec _ _ checked51 f hf
  · exact checkAll_spec _ _ checked52 f hf
  · exact checkAll_spec _ _ checked53 f hf
  · exact checkAll_spec _ _ checked54 f hf
  · exact checkAll_spec _ _ checked55 f hf
  · exact checkAll_spec _ _ checked56 f hf
  · exact checkAll_spec _ _ checked57 f hf
  · exact checkAll_spec _ _ checked58 f hf
  · exact checkAll_spec _ _ checked59 f hf
  · exact checkAll_spec _ _ checked60 f hf
  · exact checkAll_spec _ _ checked61 f hf
  · exact checkAll_spec _ _ checked62 f hf

end PyroMat.Shipped
