import Verif.Lemmas.EqPoints1

/-!
# The results of largest error, part 2
-/

namespace Verif

set_option maxRecDepth 100000

theorem ptSummer0_141 : ptBlk 1000 204300 (-73031174599000000000000) 36524172562000000000 (-5323000000) 907000 (-25) (-1000) (-11997)
    141 (-2858465257857) true = true := by decide +kernel

theorem ptSummer0_197 : ptBlk 5000 671300 (-73031174599000000000000) 36524172562000000000 (-5323000000) 907000 (-25) (-1000) (-11997)
    197 (-2802466522515) true = true := by decide +kernel

theorem ptSummer0_365 : ptBlk 1000 204300 (-73031174599000000000000) 36524172562000000000 (-5323000000) 907000 (-25) (-1000) (-11997)
    365 (-2634470291516) true = true := by decide +kernel

theorem ptSummer0_384 : ptBlk 5000 671300 (-73031174599000000000000) 36524172562000000000 (-5323000000) 907000 (-25) (-1000) (-11997)
    384 (-2615470708634) true = true := by decide +kernel

theorem ptSummer0_385 : ptBlk 1000 204300 (-73031174599000000000000) 36524172562000000000 (-5323000000) 907000 (-25) (-1000) (-11997)
    385 (-2614470728844) true = true := by decide +kernel

theorem ptSummer0_401 : ptBlk 5000 671300 (-73031174599000000000000) 36524172562000000000 (-5323000000) 907000 (-25) (-1000) (-11997)
    401 (-2598471088766) true = true := by decide +kernel

theorem ptSummer0_402 : ptBlk 50 940 (-73031174599000000000000) 36524172562000000000 (-5323000000) 907000 (-25) (-1000) (-11997)
    402 (-2597471117021) true = true := by decide +kernel

theorem ptSummer0_425 : ptBlk 5000 671300 (-73031174599000000000000) 36524172562000000000 (-5323000000) 907000 (-25) (-1000) (-11997)
    425 (-2574471636476) true = true := by decide +kernel

theorem ptSummer0_496 : ptBlk 5000 671300 (-73031174599000000000000) 36524172562000000000 (-5323000000) 907000 (-25) (-1000) (-11997)
    496 (-2503473237646) true = true := by decide +kernel

theorem ptSummer0_497 : ptBlk 1000 204300 (-73031174599000000000000) 36524172562000000000 (-5323000000) 907000 (-25) (-1000) (-11997)
    497 (-2502473259585) true = true := by decide +kernel

theorem ptSummer0_513 : ptBlk 5000 671300 (-73031174599000000000000) 36524172562000000000 (-5323000000) 907000 (-25) (-1000) (-11997)
    513 (-2486473600264) true = true := by decide +kernel

theorem ptSummer0_528 : ptBlk 5000 671300 (-73031174599000000000000) 36524172562000000000 (-5323000000) 907000 (-25) (-1000) (-11997)
    528 (-2471473938674) true = true := by decide +kernel

theorem ptSummer0_552 : ptBlk 1000 204300 (-73031174599000000000000) 36524172562000000000 (-5323000000) 907000 (-25) (-1000) (-11997)
    552 (-2447474493940) true = true := by decide +kernel

theorem ptSummer0_568 : ptBlk 1000 204300 (-73031174599000000000000) 36524172562000000000 (-5323000000) 907000 (-25) (-1000) (-11997)
    568 (-2431474845569) true = true := by decide +kernel

theorem ptSummer0_592 : ptBlk 50 940 (-73031174599000000000000) 36524172562000000000 (-5323000000) 907000 (-25) (-1000) (-11997)
    592 (-2407475397990) true = true := by decide +kernel

theorem ptSummer0_607 : ptBlk 5000 671300 (-73031174599000000000000) 36524172562000000000 (-5323000000) 907000 (-25) (-1000) (-11997)
    607 (-2392475712505) true = true := by decide +kernel

theorem ptSummer0_608 : ptBlk 1000 204300 (-73031174599000000000000) 36524172562000000000 (-5323000000) 907000 (-25) (-1000) (-11997)
    608 (-2391475744553) true = true := by decide +kernel

theorem ptSummer0_611 : ptBlk 5000 671300 (-73031174599000000000000) 36524172562000000000 (-5323000000) 907000 (-25) (-1000) (-11997)
    611 (-2388475808235) true = true := by decide +kernel

theorem ptSummer0_612 : ptBlk 5000 671300 (-73031174599000000000000) 36524172562000000000 (-5323000000) 907000 (-25) (-1000) (-11997)
    612 (-2387475838796) true = true := by decide +kernel

theorem ptSummer0_615 : ptBlk 5000 671300 (-73031174599000000000000) 36524172562000000000 (-5323000000) 907000 (-25) (-1000) (-11997)
    615 (-2384475883413) true = true := by decide +kernel

theorem ptSummer0_623 : ptBlk 1000 204300 (-73031174599000000000000) 36524172562000000000 (-5323000000) 907000 (-25) (-1000) (-11997)
    623 (-2376476065027) true = true := by decide +kernel

theorem ptSummer0_624 : ptBlk 1000 204300 (-73031174599000000000000) 36524172562000000000 (-5323000000) 907000 (-25) (-1000) (-11997)
    624 (-2375476101773) true = true := by decide +kernel

theorem ptSummer0_627 : ptBlk 50 940 (-73031174599000000000000) 36524172562000000000 (-5323000000) 907000 (-25) (-1000) (-11997)
    627 (-2372476172519) true = true := by decide +kernel

theorem ptSummer0_628 : ptBlk 1000 204300 (-73031174599000000000000) 36524172562000000000 (-5323000000) 907000 (-25) (-1000) (-11997)
    628 (-2371476204696) true = true := by decide +kernel

theorem ptSummer0_639 : ptBlk 1000 204300 (-73031174599000000000000) 36524172562000000000 (-5323000000) 907000 (-25) (-1000) (-11997)
    639 (-2360476423002) true = true := by decide +kernel

theorem ptSummer0_640 : ptBlk 5000 671300 (-73031174599000000000000) 36524172562000000000 (-5323000000) 907000 (-25) (-1000) (-11997)
    640 (-2359476455178) true = true := by decide +kernel

theorem ptSummer0_643 : ptBlk 5000 671300 (-73031174599000000000000) 36524172562000000000 (-5323000000) 907000 (-25) (-1000) (-11997)
    643 (-2356476516112) true = true := by decide +kernel

theorem ptSummer0_644 : ptBlk 1000 204300 (-73031174599000000000000) 36524172562000000000 (-5323000000) 907000 (-25) (-1000) (-11997)
    644 (-2355476548424) true = true := by decide +kernel

theorem ptSummer0_645 : ptBlk 50 940 (-73031174599000000000000) 36524172562000000000 (-5323000000) 907000 (-25) (-1000) (-11997)
    645 (-2354476575833) true = true := by decide +kernel

theorem ptSummer0_647 : ptBlk 1000 204300 (-73031174599000000000000) 36524172562000000000 (-5323000000) 907000 (-25) (-1000) (-11997)
    647 (-2352476616991) true = true := by decide +kernel

theorem ptSummer0_659 : ptBlk 5000 671300 (-73031174599000000000000) 36524172562000000000 (-5323000000) 907000 (-25) (-1000) (-11997)
    659 (-2340476872569) true = true := by decide +kernel

theorem ptSummer0_660 : ptBlk 5000 671300 (-73031174599000000000000) 36524172562000000000 (-5323000000) 907000 (-25) (-1000) (-11997)
    660 (-2339476901315) true = true := by decide +kernel

theorem ptSummer0_661 : ptBlk 1000 204300 (-73031174599000000000000) 36524172562000000000 (-5323000000) 907000 (-25) (-1000) (-11997)
    661 (-2338476935160) true = true := by decide +kernel

theorem ptSummer0_663 : ptBlk 1000 204300 (-73031174599000000000000) 36524172562000000000 (-5323000000) 907000 (-25) (-1000) (-11997)
    663 (-2336476975179) true = true := by decide +kernel

theorem ptSummer0_664 : ptBlk 1000 204300 (-73031174599000000000000) 36524172562000000000 (-5323000000) 907000 (-25) (-1000) (-11997)
    664 (-2335477016471) true = true := by decide +kernel

theorem ptSummer0_671 : ptBlk 1000 204300 (-73031174599000000000000) 36524172562000000000 (-5323000000) 907000 (-25) (-1000) (-11997)
    671 (-2328477143383) true = true := by decide +kernel

theorem ptSummer0_675 : ptBlk 1000 204300 (-73031174599000000000000) 36524172562000000000 (-5323000000) 907000 (-25) (-1000) (-11997)
    675 (-2324477235559) true = true := by decide +kernel

theorem ptSummer0_676 : ptBlk 5000 671300 (-73031174599000000000000) 36524172562000000000 (-5323000000) 907000 (-25) (-1000) (-11997)
    676 (-2323477251794) true = true := by decide +kernel

theorem ptSummer0_683 : ptBlk 1000 204300 (-73031174599000000000000) 36524172562000000000 (-5323000000) 907000 (-25) (-1000) (-11997)
    683 (-2316477441810) true = true := by decide +kernel

theorem ptSummer0_687 : ptBlk 5000 671300 (-73031174599000000000000) 36524172562000000000 (-5323000000) 907000 (-25) (-1000) (-11997)
    687 (-2312477515042) true = true := by decide +kernel

theorem ptSummer0_699 : ptBlk 1000 204300 (-73031174599000000000000) 36524172562000000000 (-5323000000) 907000 (-25) (-1000) (-11997)
    699 (-2300477802896) true = true := by decide +kernel

theorem ptSummer0_703 : ptBlk 5000 671300 (-73031174599000000000000) 36524172562000000000 (-5323000000) 907000 (-25) (-1000) (-11997)
    703 (-2296477872406) true = true := by decide +kernel

theorem ptSummer0_718 : ptBlk 5000 671300 (-73031174599000000000000) 36524172562000000000 (-5323000000) 907000 (-25) (-1000) (-11997)
    718 (-2281478221825) true = true := by decide +kernel

theorem ptSummer0_723 : ptBlk 1000 204300 (-73031174599000000000000) 36524172562000000000 (-5323000000) 907000 (-25) (-1000) (-11997)
    723 (-2276478348105) true = true := by decide +kernel

theorem ptSummer0_739 : ptBlk 5000 671300 (-73031174599000000000000) 36524172562000000000 (-5323000000) 907000 (-25) (-1000) (-11997)
    739 (-2260478698030) true = true := by decide +kernel

theorem ptSummer0_755 : ptBlk 1000 204300 (-73031174599000000000000) 36524172562000000000 (-5323000000) 907000 (-25) (-1000) (-11997)
    755 (-2244479057303) true = true := by decide +kernel

theorem ptSummer0_756 : ptBlk 5000 671300 (-73031174599000000000000) 36524172562000000000 (-5323000000) 907000 (-25) (-1000) (-11997)
    756 (-2243479090935) true = true := by decide +kernel

theorem ptSummer0_829 : ptBlk 5000 671300 (-73031174599000000000000) 36524172562000000000 (-5323000000) 907000 (-25) (-1000) (-11997)
    829 (-2170480728139) true = true := by decide +kernel

theorem ptSummer0_850 : ptBlk 1000 204300 (-73031174599000000000000) 36524172562000000000 (-5323000000) 907000 (-25) (-1000) (-11997)
    850 (-2149481190968) true = true := by decide +kernel

theorem ptsSummer0 : ∀ j ∈
    [141, 197, 365, 384, 385, 401, 402, 425, 496, 497, 513, 528, 552, 568, 592, 607, 608,
    611, 612, 615, 623, 624, 627, 628, 639, 640, 643, 644, 645, 647, 659, 660, 661, 663,
    664, 671, 675, 676, 683, 687, 699, 703, 718, 723, 739, 755, 756, 829, 850],
    HasPoint (-73031174599000000000000) 36524172562000000000 (-5323000000) 907000 (-25) (-1000) (-11997) j := by
  simp only [List.forall_mem_cons]
  exact ⟨⟨_, _, _, _, tier1, ptSummer0_141⟩,
    ⟨_, _, _, _, tier2, ptSummer0_197⟩,
    ⟨_, _, _, _, tier1, ptSummer0_365⟩,
    ⟨_, _, _, _, tier2, ptSummer0_384⟩,
    ⟨_, _, _, _, tier1, ptSummer0_385⟩,
    ⟨_, _, _, _, tier2, ptSummer0_401⟩,
    ⟨_, _, _, _, tier0, ptSummer0_402⟩,
    ⟨_, _, _, _, tier2, ptSummer0_425⟩,
    ⟨_, _, _, _, tier2, ptSummer0_496⟩,
    ⟨_, _, _, _, tier1, ptSummer0_497⟩,
    ⟨_, _, _, _, tier2, ptSummer0_513⟩,
    ⟨_, _, _, _, tier2, ptSummer0_528⟩,
    ⟨_, _, _, _, tier1, ptSummer0_552⟩,
    ⟨_, _, _, _, tier1, ptSummer0_568⟩,
    ⟨_, _, _, _, tier0, ptSummer0_592⟩,
    ⟨_, _, _, _, tier2, ptSummer0_607⟩,
    ⟨_, _, _, _, tier1, ptSummer0_608⟩,
    ⟨_, _, _, _, tier2, ptSummer0_611⟩,
    ⟨_, _, _, _, tier2, ptSummer0_612⟩,
    ⟨_, _, _, _, tier2, ptSummer0_615⟩,
    ⟨_, _, _, _, tier1, ptSummer0_623⟩,
    ⟨_, _, _, _, tier1, ptSummer0_624⟩,
    ⟨_, _, _, _, tier0, ptSummer0_627⟩,
    ⟨_, _, _, _, tier1, ptSummer0_628⟩,
    ⟨_, _, _, _, tier1, ptSummer0_639⟩,
    ⟨_, _, _, _, tier2, ptSummer0_640⟩,
    ⟨_, _, _, _, tier2, ptSummer0_643⟩,
    ⟨_, _, _, _, tier1, ptSummer0_644⟩,
    ⟨_, _, _, _, tier0, ptSummer0_645⟩,
    ⟨_, _, _, _, tier1, ptSummer0_647⟩,
    ⟨_, _, _, _, tier2, ptSummer0_659⟩,
    ⟨_, _, _, _, tier2, ptSummer0_660⟩,
    ⟨_, _, _, _, tier1, ptSummer0_661⟩,
    ⟨_, _, _, _, tier1, ptSummer0_663⟩,
    ⟨_, _, _, _, tier1, ptSummer0_664⟩,
    ⟨_, _, _, _, tier1, ptSummer0_671⟩,
    ⟨_, _, _, _, tier1, ptSummer0_675⟩,
    ⟨_, _, _, _, tier2, ptSummer0_676⟩,
    ⟨_, _, _, _, tier1, ptSummer0_683⟩,
    ⟨_, _, _, _, tier2, ptSummer0_687⟩,
    ⟨_, _, _, _, tier1, ptSummer0_699⟩,
    ⟨_, _, _, _, tier2, ptSummer0_703⟩,
    ⟨_, _, _, _, tier2, ptSummer0_718⟩,
    ⟨_, _, _, _, tier1, ptSummer0_723⟩,
    ⟨_, _, _, _, tier2, ptSummer0_739⟩,
    ⟨_, _, _, _, tier1, ptSummer0_755⟩,
    ⟨_, _, _, _, tier2, ptSummer0_756⟩,
    ⟨_, _, _, _, tier2, ptSummer0_829⟩,
    ⟨_, _, _, _, tier1, ptSummer0_850⟩,
    by simp⟩

end Verif
