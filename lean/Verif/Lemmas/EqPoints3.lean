import Verif.Lemmas.EqPoints2

/-!
# The results of largest error, part 3
-/

namespace Verif

set_option maxRecDepth 100000

theorem ptWinter0_3 : ptBlk 1000 204300 (-73013060013000000000000) 36524288257000000000 (-769000000) (-933000) (-6) (-1000) (-11995)
    3 (-2995969207246) false = true := by decide +kernel

theorem ptWinter0_4 : ptBlk 50 940 (-73013060013000000000000) 36524288257000000000 (-769000000) (-933000) (-6) (-1000) (-11995)
    4 (-2994969226825) false = true := by decide +kernel

theorem ptWinter0_19 : ptBlk 1000 204300 (-73013060013000000000000) 36524288257000000000 (-769000000) (-933000) (-6) (-1000) (-11995)
    19 (-2979969525099) false = true := by decide +kernel

theorem ptWinter0_39 : ptBlk 5000 671300 (-73013060013000000000000) 36524288257000000000 (-769000000) (-933000) (-6) (-1000) (-11995)
    39 (-2959969911084) false = true := by decide +kernel

theorem ptWinter0_51 : ptBlk 1000 204300 (-73013060013000000000000) 36524288257000000000 (-769000000) (-933000) (-6) (-1000) (-11995)
    51 (-2947970166412) false = true := by decide +kernel

theorem ptWinter0_647 : ptBlk 1000 204300 (-73013060013000000000000) 36524288257000000000 (-769000000) (-933000) (-6) (-1000) (-11995)
    647 (-2351981779044) true = true := by decide +kernel

theorem ptWinter0_719 : ptBlk 1000 204300 (-73013060013000000000000) 36524288257000000000 (-769000000) (-933000) (-6) (-1000) (-11995)
    719 (-2279983166353) true = true := by decide +kernel

theorem ptsWinter0 : ∀ j ∈
    [3, 4, 19, 39, 51, 647, 719],
    HasPoint (-73013060013000000000000) 36524288257000000000 (-769000000) (-933000) (-6) (-1000) (-11995) j := by
  simp only [List.forall_mem_cons]
  exact ⟨⟨_, _, _, _, tier1, ptWinter0_3⟩,
    ⟨_, _, _, _, tier0, ptWinter0_4⟩,
    ⟨_, _, _, _, tier1, ptWinter0_19⟩,
    ⟨_, _, _, _, tier2, ptWinter0_39⟩,
    ⟨_, _, _, _, tier1, ptWinter0_51⟩,
    ⟨_, _, _, _, tier1, ptWinter0_647⟩,
    ⟨_, _, _, _, tier1, ptWinter0_719⟩,
    by simp⟩

theorem ptSpring1_447 : ptBlk 50 940 (-73040570811000000000000) 36524213740000000000 6134000000 111000 (-71) 24 (-7902)
    447 (-1528751937846) false = true := by decide +kernel

theorem ptSpring1_684 : ptBlk 1000 204300 (-73040570811000000000000) 36524213740000000000 6134000000 111000 (-71) 24 (-7902)
    684 (-1291757008698) false = true := by decide +kernel

theorem ptSpring1_732 : ptBlk 1000 204300 (-73040570811000000000000) 36524213740000000000 6134000000 111000 (-71) 24 (-7902)
    732 (-1243758019155) false = true := by decide +kernel

theorem ptsSpring1 : ∀ j ∈
    [447, 684, 732],
    HasPoint (-73040570811000000000000) 36524213740000000000 6134000000 111000 (-71) 24 (-7902) j := by
  simp only [List.forall_mem_cons]
  exact ⟨⟨_, _, _, _, tier0, ptSpring1_447⟩,
    ⟨_, _, _, _, tier1, ptSpring1_684⟩,
    ⟨_, _, _, _, tier1, ptSpring1_732⟩,
    by simp⟩

theorem ptsSummer1 : ∀ j ∈
    [],
    HasPoint (-73031174599000000000000) 36524172562000000000 (-5323000000) 907000 (-25) 24 (-7901) j := by
  simp

theorem ptAutumn1_354 : ptBlk 5000 671300 (-73021929545000000000000) 36524249558000000000 (-11677000000) (-297000) 74 24 (-7900)
    354 (-1621239281408) false = true := by decide +kernel

theorem ptsAutumn1 : ∀ j ∈
    [354],
    HasPoint (-73021929545000000000000) 36524249558000000000 (-11677000000) (-297000) 74 24 (-7900) j := by
  simp only [List.forall_mem_cons]
  exact ⟨⟨_, _, _, _, tier2, ptAutumn1_354⟩,
    by simp⟩

theorem ptWinter1_398 : ptBlk 5000 671300 (-73013060013000000000000) 36524288257000000000 (-769000000) (-933000) (-6) 24 (-7899)
    398 (-1576996852695) false = true := by decide +kernel

theorem ptWinter1_403 : ptBlk 5000 671300 (-73013060013000000000000) 36524288257000000000 (-769000000) (-933000) (-6) 24 (-7899)
    403 (-1571996980280) false = true := by decide +kernel

theorem ptWinter1_413 : ptBlk 5000 671300 (-73013060013000000000000) 36524288257000000000 (-769000000) (-933000) (-6) 24 (-7899)
    413 (-1561997153489) false = true := by decide +kernel

theorem ptWinter1_414 : ptBlk 1000 204300 (-73013060013000000000000) 36524288257000000000 (-769000000) (-933000) (-6) 24 (-7899)
    414 (-1560997165697) false = true := by decide +kernel

theorem ptWinter1_415 : ptBlk 5000 671300 (-73013060013000000000000) 36524288257000000000 (-769000000) (-933000) (-6) 24 (-7899)
    415 (-1559997196530) false = true := by decide +kernel

theorem ptWinter1_429 : ptBlk 5000 671300 (-73013060013000000000000) 36524288257000000000 (-769000000) (-933000) (-6) 24 (-7899)
    429 (-1545997477146) false = true := by decide +kernel

theorem ptWinter1_430 : ptBlk 5000 671300 (-73013060013000000000000) 36524288257000000000 (-769000000) (-933000) (-6) 24 (-7899)
    430 (-1544997482499) false = true := by decide +kernel

theorem ptWinter1_433 : ptBlk 5000 671300 (-73013060013000000000000) 36524288257000000000 (-769000000) (-933000) (-6) 24 (-7899)
    433 (-1541997525729) false = true := by decide +kernel

theorem ptWinter1_445 : ptBlk 5000 671300 (-73013060013000000000000) 36524288257000000000 (-769000000) (-933000) (-6) 24 (-7899)
    445 (-1529997788047) false = true := by decide +kernel

theorem ptWinter1_446 : ptBlk 5000 671300 (-73013060013000000000000) 36524288257000000000 (-769000000) (-933000) (-6) 24 (-7899)
    446 (-1528997805356) false = true := by decide +kernel

theorem ptWinter1_447 : ptBlk 5000 671300 (-73013060013000000000000) 36524288257000000000 (-769000000) (-933000) (-6) 24 (-7899)
    447 (-1527997816597) false = true := by decide +kernel

theorem ptWinter1_462 : ptBlk 5000 671300 (-73013060013000000000000) 36524288257000000000 (-769000000) (-933000) (-6) 24 (-7899)
    462 (-1512998137033) false = true := by decide +kernel

theorem ptWinter1_640 : ptBlk 5000 671300 (-73013060013000000000000) 36524288257000000000 (-769000000) (-933000) (-6) 24 (-7899)
    640 (-1335001594539) false = true := by decide +kernel

theorem ptWinter1_652 : ptBlk 5000 671300 (-73013060013000000000000) 36524288257000000000 (-769000000) (-933000) (-6) 24 (-7899)
    652 (-1323001830472) false = true := by decide +kernel

theorem ptsWinter1 : ∀ j ∈
    [398, 403, 413, 414, 415, 429, 430, 433, 445, 446, 447, 462, 640, 652],
    HasPoint (-73013060013000000000000) 36524288257000000000 (-769000000) (-933000) (-6) 24 (-7899) j := by
  simp only [List.forall_mem_cons]
  exact ⟨⟨_, _, _, _, tier2, ptWinter1_398⟩,
    ⟨_, _, _, _, tier2, ptWinter1_403⟩,
    ⟨_, _, _, _, tier2, ptWinter1_413⟩,
    ⟨_, _, _, _, tier1, ptWinter1_414⟩,
    ⟨_, _, _, _, tier2, ptWinter1_415⟩,
    ⟨_, _, _, _, tier2, ptWinter1_429⟩,
    ⟨_, _, _, _, tier2, ptWinter1_430⟩,
    ⟨_, _, _, _, tier2, ptWinter1_433⟩,
    ⟨_, _, _, _, tier2, ptWinter1_445⟩,
    ⟨_, _, _, _, tier2, ptWinter1_446⟩,
    ⟨_, _, _, _, tier2, ptWinter1_447⟩,
    ⟨_, _, _, _, tier2, ptWinter1_462⟩,
    ⟨_, _, _, _, tier2, ptWinter1_640⟩,
    ⟨_, _, _, _, tier2, ptWinter1_652⟩,
    by simp⟩

end Verif
