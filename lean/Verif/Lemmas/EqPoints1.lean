import Verif.Lemmas.PointEvent

/-!
# The results of largest error, part 1
-/

namespace Verif

set_option maxRecDepth 100000

theorem ptSpring0_5 : ptBlk 50 940 (-73040570811000000000000) 36524213740000000000 6134000000 111000 (-71) (-1000) (-11998)
    5 (-2994720255051) false = true := by decide +kernel

theorem ptSpring0_24 : ptBlk 1000 204300 (-73040570811000000000000) 36524213740000000000 6134000000 111000 (-71) (-1000) (-11998)
    24 (-2975720666771) false = true := by decide +kernel

theorem ptSpring0_37 : ptBlk 1000 204300 (-73040570811000000000000) 36524213740000000000 6134000000 111000 (-71) (-1000) (-11998)
    37 (-2962720968024) false = true := by decide +kernel

theorem ptSpring0_349 : ptBlk 1000 204300 (-73040570811000000000000) 36524213740000000000 6134000000 111000 (-71) (-1000) (-11998)
    349 (-2650727778645) true = true := by decide +kernel

theorem ptSpring0_365 : ptBlk 1000 204300 (-73040570811000000000000) 36524213740000000000 6134000000 111000 (-71) (-1000) (-11998)
    365 (-2634728125527) true = true := by decide +kernel

theorem ptSpring0_647 : ptBlk 1000 204300 (-73040570811000000000000) 36524213740000000000 6134000000 111000 (-71) (-1000) (-11998)
    647 (-2352734232470) true = true := by decide +kernel

theorem ptSpring0_756 : ptBlk 5000 671300 (-73040570811000000000000) 36524213740000000000 6134000000 111000 (-71) (-1000) (-11998)
    756 (-2243736594692) true = true := by decide +kernel

theorem ptSpring0_851 : ptBlk 1000 204300 (-73040570811000000000000) 36524213740000000000 6134000000 111000 (-71) (-1000) (-11998)
    851 (-2148738648227) true = true := by decide +kernel

theorem ptsSpring0 : ∀ j ∈
    [5, 24, 37, 349, 365, 647, 756, 851],
    HasPoint (-73040570811000000000000) 36524213740000000000 6134000000 111000 (-71) (-1000) (-11998) j := by
  simp only [List.forall_mem_cons]
  exact ⟨⟨_, _, _, _, tier0, ptSpring0_5⟩,
    ⟨_, _, _, _, tier1, ptSpring0_24⟩,
    ⟨_, _, _, _, tier1, ptSpring0_37⟩,
    ⟨_, _, _, _, tier1, ptSpring0_349⟩,
    ⟨_, _, _, _, tier1, ptSpring0_365⟩,
    ⟨_, _, _, _, tier1, ptSpring0_647⟩,
    ⟨_, _, _, _, tier2, ptSpring0_756⟩,
    ⟨_, _, _, _, tier1, ptSpring0_851⟩,
    by simp⟩

theorem ptAutumn0_2 : ptBlk 5000 671300 (-73021929545000000000000) 36524249558000000000 (-11677000000) (-297000) 74 (-1000) (-11996)
    2 (-2997211274261) false = true := by decide +kernel

theorem ptAutumn0_4 : ptBlk 5000 671300 (-73021929545000000000000) 36524249558000000000 (-11677000000) (-297000) 74 (-1000) (-11996)
    4 (-2995211306735) false = true := by decide +kernel

theorem ptAutumn0_20 : ptBlk 1000 204300 (-73021929545000000000000) 36524249558000000000 (-11677000000) (-297000) 74 (-1000) (-11996)
    20 (-2979211628262) false = true := by decide +kernel

theorem ptAutumn0_37 : ptBlk 5000 671300 (-73021929545000000000000) 36524249558000000000 (-11677000000) (-297000) 74 (-1000) (-11996)
    37 (-2962211986856) false = true := by decide +kernel

theorem ptAutumn0_210 : ptBlk 5000 671300 (-73021929545000000000000) 36524249558000000000 (-11677000000) (-297000) 74 (-1000) (-11996)
    210 (-2789215429854) false = true := by decide +kernel

theorem ptAutumn0_227 : ptBlk 1000 204300 (-73021929545000000000000) 36524249558000000000 (-11677000000) (-297000) 74 (-1000) (-11996)
    227 (-2772215772734) false = true := by decide +kernel

theorem ptAutumn0_599 : ptBlk 1000 204300 (-73021929545000000000000) 36524249558000000000 (-11677000000) (-297000) 74 (-1000) (-11996)
    599 (-2400223261760) true = true := by decide +kernel

theorem ptAutumn0_644 : ptBlk 1000 204300 (-73021929545000000000000) 36524249558000000000 (-11677000000) (-297000) 74 (-1000) (-11996)
    644 (-2355224218250) true = true := by decide +kernel

theorem ptAutumn0_645 : ptBlk 1000 204300 (-73021929545000000000000) 36524249558000000000 (-11677000000) (-297000) 74 (-1000) (-11996)
    645 (-2354224224591) true = true := by decide +kernel

theorem ptAutumn0_647 : ptBlk 1000 204300 (-73021929545000000000000) 36524249558000000000 (-11677000000) (-297000) 74 (-1000) (-11996)
    647 (-2352224268807) true = true := by decide +kernel

theorem ptAutumn0_663 : ptBlk 1000 204300 (-73021929545000000000000) 36524249558000000000 (-11677000000) (-297000) 74 (-1000) (-11996)
    663 (-2336224594903) true = true := by decide +kernel

theorem ptAutumn0_671 : ptBlk 1000 204300 (-73021929545000000000000) 36524249558000000000 (-11677000000) (-297000) 74 (-1000) (-11996)
    671 (-2328224740935) true = true := by decide +kernel

theorem ptAutumn0_718 : ptBlk 1000 204300 (-73021929545000000000000) 36524249558000000000 (-11677000000) (-297000) 74 (-1000) (-11996)
    718 (-2281225714384) true = true := by decide +kernel

theorem ptAutumn0_849 : ptBlk 1000 204300 (-73021929545000000000000) 36524249558000000000 (-11677000000) (-297000) 74 (-1000) (-11996)
    849 (-2150228375039) true = true := by decide +kernel

theorem ptAutumn0_850 : ptBlk 1000 204300 (-73021929545000000000000) 36524249558000000000 (-11677000000) (-297000) 74 (-1000) (-11996)
    850 (-2149228402675) true = true := by decide +kernel

theorem ptsAutumn0 : ∀ j ∈
    [2, 4, 20, 37, 210, 227, 599, 644, 645, 647, 663, 671, 718, 849, 850],
    HasPoint (-73021929545000000000000) 36524249558000000000 (-11677000000) (-297000) 74 (-1000) (-11996) j := by
  simp only [List.forall_mem_cons]
  exact ⟨⟨_, _, _, _, tier2, ptAutumn0_2⟩,
    ⟨_, _, _, _, tier2, ptAutumn0_4⟩,
    ⟨_, _, _, _, tier1, ptAutumn0_20⟩,
    ⟨_, _, _, _, tier2, ptAutumn0_37⟩,
    ⟨_, _, _, _, tier2, ptAutumn0_210⟩,
    ⟨_, _, _, _, tier1, ptAutumn0_227⟩,
    ⟨_, _, _, _, tier1, ptAutumn0_599⟩,
    ⟨_, _, _, _, tier1, ptAutumn0_644⟩,
    ⟨_, _, _, _, tier1, ptAutumn0_645⟩,
    ⟨_, _, _, _, tier1, ptAutumn0_647⟩,
    ⟨_, _, _, _, tier1, ptAutumn0_663⟩,
    ⟨_, _, _, _, tier1, ptAutumn0_671⟩,
    ⟨_, _, _, _, tier1, ptAutumn0_718⟩,
    ⟨_, _, _, _, tier1, ptAutumn0_849⟩,
    ⟨_, _, _, _, tier1, ptAutumn0_850⟩,
    by simp⟩

end Verif
