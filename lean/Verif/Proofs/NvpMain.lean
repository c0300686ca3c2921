import Verif.Proofs.NvpBlocks

/-!
# nvp.nfa in steps
-/

namespace Mairix

theorem nvp_env0 : NfaEnv.start.decls (nvpscanAbbrevs ++ [nvpscanEscape, nvpscanOptwhite, nvpscanName, nvpscanValue, nvpscanQvalue, nvpscanDigits, nvpscanMinor, nvpscanNamevalue, nvpscanMajor, nvpscanMajorminor]) = .ok nvpEnv0 := by
  decide +kernel

theorem nvp_env1 : nvpEnv0.decl nvpscanComponent = .ok nvpEnv1 := by decide +kernel

theorem nvp_main1 : nvpEnv1.transition (.to [nm! "out2"]) 0 [[wd! "OWS"], [inl! "component"], [wd! "OWS"], [wd! "EOS"]] ⟨nm! "main", [⟨nm! "in", [], []⟩], 1, 1⟩ =
    .ok nvpMain1 := by decide +kernel

theorem nvp_main2 : nvpEnv1.transition (.to [nm! "out2"]) 0 [[wd! "OWS"], [inl! "component"], [wd! "OWS"], [.cls 33], [wd! "OWS"], [wd! "EOS"]] nvpMain1 =
    .ok nvpMain2 := by decide +kernel

theorem nvp_main3 : nvpEnv1.transition (.to [nm! "in2"]) 0 [[wd! "OWS"], [inl! "component"], [wd! "OWS"], [.cls 34]] nvpMain2 = .ok nvpMain3 := by decide +kernel

theorem nvp_main4 : nvpEnv1.states [
    ⟨nm! "in2", none, [
      gives [[.eps]] [bs "GOT_TERMINATOR"],
      goes [[.eps]] [nm! "in"]]⟩,
    ⟨nm! "out2", none, [
      gives [[.eps]] [bs "GOT_TERMINATOR"],
      goes [[.eps]] [nm! "out"]]⟩] ⟨nvpMain3, some 0, [(bs "in", 0)]⟩ = .ok ⟨nvpMain4, some 703, [(bs "in", 0)]⟩ := by decide +kernel

end Mairix
