import Verif.Proofs.NvpMain
import Verif.Proofs.NvpRefs

/-!
# nvp.nfa as it is read
-/

namespace Mairix

theorem nvp_main_out : nvpMainBlock = { nvpMain4 with states := nvpMain4.states ++ [⟨nm! "out", [], []⟩] } := by decide +kernel

theorem nvp_to_out : ∃ t ∈ nvpMain4.states.flatMap BState.trans, t.dest = nm! "out" ∧ posOf t.dest nvpMain4.states 0 = none :=
  ⟨.eps (nm! "out"), by decide +kernel, by decide +kernel, by decide +kernel⟩

theorem nvp_same_trans : nvpMain4.states.flatMap BState.trans = nvpMainBlock.states.flatMap BState.trans := by
  rw [nvp_main_out]
  simp

theorem nvp_fixup : fixup (nvpMain4.states.flatMap BState.trans) nvpMain4 = nvpMainBlock :=
  fixup_one nvp_main_out (by rw [nvp_same_trans]; exact (statesOk_spec nvp_refs).2) nvp_to_out

theorem goes_three {env : NfaEnv} {i : Nat} {s1 s2 s3 : List (List Stim)} {l1 l2 l3 : List Name} {b b1 b2 b3 : Block} (h1 : env.transition (.to l1) i s1 b = .ok b1)
    (h2 : env.transition (.to l2) i s2 b1 = .ok b2) (h3 : env.transition (.to l3) i s3 b2 = .ok b3) : env.transitions i [goes s1 l1, goes s2 l2, goes s3 l3] b = .ok b3 := by
  rw [transitions_cons (t := goes s1 l1) h1, transitions_cons (t := goes s2 l2) h2, transitions_cons (t := goes s3 l3) h3]
  rfl

theorem nvp_main_states : nvpEnv1.states [
    ⟨nm! "in", (some (bs "in")), [
      goes [[wd! "OWS"], [inl! "component"], [wd! "OWS"], [wd! "EOS"]] [nm! "out2"],
      goes [[wd! "OWS"], [inl! "component"], [wd! "OWS"], [.cls 33], [wd! "OWS"], [wd! "EOS"]] [nm! "out2"],
      goes [[wd! "OWS"], [inl! "component"], [wd! "OWS"], [.cls 34]] [nm! "in2"]]⟩,
    ⟨nm! "in2", none, [
      gives [[.eps]] [bs "GOT_TERMINATOR"],
      goes [[.eps]] [nm! "in"]]⟩,
    ⟨nm! "out2", none, [
      gives [[.eps]] [bs "GOT_TERMINATOR"],
      goes [[.eps]] [nm! "out"]]⟩] ⟨⟨nm! "main", [], 1, 1⟩, none, []⟩ = .ok ⟨nvpMain4, some 703, [(bs "in", 0)]⟩ := by
  rw [states_cons (b' := ⟨nm! "main", [⟨nm! "in", [], []⟩], 1, 1⟩) (i := 0) (blk := nvpMain3) rfl]
  · exact nvp_main4
  · exact goes_three nvp_main1 nvp_main2 nvp_main3

theorem nvp_env2 : nvpEnv1.decl nvpscanMain = .ok { nvpEnv1 with
    blocks := nvpEnv1.blocks ++ [nvpMainBlock]
    cur := some (nvpEnv1.blocks.length, 703)
    entries := [(bs "in", nvpEnv1.blocks.length, 0)] } :=
  decl_block (by decide +kernel) nvp_main_states nvp_fixup

theorem decls_attrs {env : NfaEnv} {d : AttrDecl} {n n' : Text} {l l' : List AttrDecl} : env.decls [.attr d, .group n l, .group n' l'] =
    .ok { env with groups := inGroup (some n') l' (inGroup (some n) l (inGroup none [d] env.groups)) } := rfl

/-- What the attributes of nvp.nfa add. -/
theorem nvp_attrs {env : NfaEnv} (hg : env.groups = [(none, ⟨[], none⟩)]) : ∃ gs, env.decls nvpscanAttrs = .ok { env with groups := gs } ∧
    gs.map (·.2) = nvpAuto.evaluators := by
  refine ⟨_, decls_attrs, ?_⟩
  rw [hg]
  decide +kernel

theorem finish_one {env : NfaEnv} {bs : List Block} {b : Block} {n : Text} {i : Nat} (hb : env.blocks = bs ++ [b]) (he : env.entries = [(n, bs.length, i)])
    (classes : List ClassExpr) : env.finish classes = .ok ⟨classes, b.refs, env.tokens.length, env.groups.map (·.2), env.defs, [i]⟩ := by
  simp [NfaEnv.finish, he, hb]

theorem nvp_decls : nvpscanFile.decls = (nvpscanAbbrevs ++ [nvpscanEscape, nvpscanOptwhite, nvpscanName, nvpscanValue, nvpscanQvalue, nvpscanDigits, nvpscanMinor, nvpscanNamevalue, nvpscanMajor, nvpscanMajorminor]) ++ nvpscanComponent :: nvpscanMain :: nvpscanAttrs := by
  simp [nvpscanFile]

theorem nvp_rest : nvpAuto.nt = nvpEnv1.tokens.length ∧ nvpAuto.defs = nvpEnv1.defs ∧ nvpAuto.entries = [0] ∧ nvpEnv1.groups = [(none, ⟨[], none⟩)] := by decide +kernel

theorem read_of {f : NfaFile} {e1 e2 e3 : NfaEnv} {a : IAuto} {ds ds' : List Decl} {d1 d2 : Decl} {n : Text} {i : Nat} {b : Block} {gs : List (Option Text × Evaluator)}
    (hf : f.decls = ds ++ d1 :: d2 :: ds') (h1 : NfaEnv.start.decls ds = .ok e1) (h2 : e1.decl d1 = .ok e2) (h3 : e2.decl d2 = .ok e3)
    (h4 : e3.decls ds' = .ok { e3 with groups := gs }) (hb : e3.blocks = e2.blocks ++ [b]) (he : e3.entries = [(n, e2.blocks.length, i)])
    (ha : a = ⟨f.classes, b.refs, e3.tokens.length, gs.map (·.2), e3.defs, [i]⟩) : f.read = .ok a := by
  unfold NfaFile.read
  rw [hf, decls_append h1, decls_cons h2, decls_cons h3, h4, ha]
  exact finish_one (env := { e3 with groups := gs }) hb he f.classes

theorem nvp_read : nvpscanFile.read = .ok nvpAuto := by
  obtain ⟨h1, h2, h3, h4⟩ := nvp_rest
  obtain ⟨gs, h5, h6⟩ := nvp_attrs (env := { nvpEnv1 with
    blocks := nvpEnv1.blocks ++ [nvpMainBlock]
    cur := some (nvpEnv1.blocks.length, 703)
    entries := [(bs "in", nvpEnv1.blocks.length, 0)] }) h4
  refine read_of nvp_decls nvp_env0 nvp_env1 nvp_env2 h5 rfl rfl ?_
  have h7 : nvpMainBlock.refs = nvpAuto.states := (statesOk_spec nvp_refs).1
  rw [h6, h7]
  simp only [← h1, ← h2, ← h3]
  rfl

end Mairix
