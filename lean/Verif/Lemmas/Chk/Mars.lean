import Verif.Lemmas.ChkEntry

/-!
# The check values of Mars
-/

namespace Verif

/-- What is to be computed for the entries of `chkMars`. -/
def targetMars : List ChkTarget := [
  ⟨0, 10000627353899830000000000, 0, 9999997522201760000000000, 10000139120769250000000000⟩,
  ⟨1, 9967198537924058191672324, 53, 9999997280341310000000000, 10000142187777050000000000⟩,
  ⟨2, 9933785354298676383344648, 106, 10000000349699390000000000, 10000156151400110000000000⟩,
  ⟨3, 9900389020102744575016972, 159, 10000002802681490000000000, 10000165846970820000000000⟩,
  ⟨4, 9866997053591732766689296, 212, 10000003007021810000000000, 10000163719972070000000000⟩,
  ⟨5, 9833596099029130958361620, 265, 10000000666760980000000000, 10000151236226900000000000⟩,
  ⟨6, 9800176186308591191386252, 319, 9999997332057570000000000, 10000139259645290000000000⟩,
  ⟨7, 9766747445822399383058576, 372, 9999997449680770000000000, 10000142087072150000000000⟩,
  ⟨8, 9733334017393617574730900, 425, 10000000658855090000000000, 10000155938020080000000000⟩,
  ⟨9, 9699937413360255766403224, 478, 10000002955227190000000000, 10000165710023070000000000⟩]

theorem chk_marsL : allN Data.marsL (targetMars.map ChkTarget.L) = true := by decide +kernel

theorem small_marsL : smallN Data.marsL = true := by decide +kernel

theorem chk_marsB : allN Data.marsB (targetMars.map ChkTarget.B) = true := by decide +kernel

theorem small_marsB : smallN Data.marsB = true := by decide +kernel

theorem chk_marsR : allN Data.marsR (targetMars.map ChkTarget.R) = true := by decide +kernel

theorem small_marsR : smallN Data.marsR = true := by decide +kernel

theorem match_mars : matchOk "Mars" chkMars targetMars = true := by decide +kernel

theorem chk_mars : ∀ e ∈ chkMars, Meets e :=
  meets_of rfl rfl rfl match_mars small_marsL small_marsB small_marsR chk_marsL chk_marsB chk_marsR

end Verif
