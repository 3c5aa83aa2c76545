import Verif.Inp.ErrLemmas
import Verif.Inp.ErrSpec
/-! Helper lemmas: the exceptions of the classes of the table. -/
namespace Inp
open Py Types Ptrac

/-- What is known about the types of the attributes. -/
def AllTy (E : List Err) : List Attr → Prop
  | [] => True
  | a :: as => TyOut E a.ty ∧ AllTy E as

theorem AllTy.mem {E : List Err} : ∀ {as : List Attr}, AllTy E as → ∀ a ∈ as, TyOut E a.ty
  | [], _, a, ha => by cases ha
  | b :: as, h, a, ha => by
    rcases List.mem_cons.1 ha with rfl | ha
    · exact h.1
    · exact AllTy.mem h.2 a ha

/-- Building an object of the class raises nothing but `E`. -/
def ClsOk (E : List Err) (c : Cls) : Prop :=
  (clsErrs c).all (fun e => E.contains e) = true ∧ c.attrs.length ≤ c.pat.ng ∧ AllTy E c.attrs

theorem ClsOk.build {E : List Err} {c : Cls} (hc : ClsOk E c) {s : Str} {m} (h : reMatch c.re s = some m) :
    Out (· ∈ E) (c.build m) ∧ ∀ v, c.build m = .ok v → absOf v = .obj := by
  obtain ⟨a, b⟩ := build_sound hc.2.1 hc.2.2.mem h
  refine ⟨a.mono ?_, b⟩
  intro e he
  rcases List.mem_append.1 he with he | he
  · simpa using List.all_eq_true.1 hc.1 e he
  · exact he

theorem TyOut.mono {E F : List Err} (h : E ⊆ F) {t : Ty} (ht : TyOut E t) : TyOut F t := by
  cases t with
  | base k => trivial
  | other n r g p => exact fun s => ⟨(ht s).1.mono (fun e he => h he), (ht s).2⟩

theorem AllTy.mono {E F : List Err} (h : E ⊆ F) : ∀ {as : List Attr}, AllTy E as → AllTy F as
  | [], _ => trivial
  | _ :: _, ha => ⟨TyOut.mono h ha.1, AllTy.mono h ha.2⟩

theorem ClsOk.mono {E F : List Err} (h : E ⊆ F) {c : Cls} (hc : ClsOk E c) : ClsOk F c := by
  refine ⟨?_, hc.2.1, hc.2.2.mono h⟩
  rw [List.all_eq_true] at *
  intro e he
  have := List.all_eq_true.1 hc.1 e he
  simp only [List.contains_iff_mem] at this ⊢
  exact h this

/-- Only the types of src/pymcnp/types. -/
def baseOnly (as : List Attr) : Bool := as.all (fun a => match a.ty with | .base _ => true | .other _ _ _ _ => false)

theorem base_all {E : List Err} : ∀ {as : List Attr}, baseOnly as = true → AllTy E as
  | [], _ => trivial
  | a :: as, h => by
    simp only [baseOnly, List.all_cons, Bool.and_eq_true] at h
    refine ⟨?_, base_all h.2⟩
    cases ht : a.ty with
    | base k => trivial
    | other n r g p => rw [ht] at h; cases h.1

/-- Decidable part of `ClsOk`. -/
def clsCheck (E : List Err) (c : Cls) : Bool :=
  (clsErrs c).all (fun e => E.contains e) && decide (c.attrs.length ≤ c.pat.ng) && baseOnly c.attrs

theorem okAll {E : List Err} {cs : List Cls} (h : cs.all (clsCheck E) = true) : ∀ c ∈ cs, ClsOk E c := by
  intro c hc
  have := List.all_eq_true.1 h c hc
  simp only [clsCheck, Bool.and_eq_true, decide_eq_true_eq] at this
  exact ⟨this.1.1, this.1.2, base_all this.2⟩

theorem ok_nil {E : List Err} : ∀ c ∈ ([] : List Cls), ClsOk E c := by intro c hc; cases hc

theorem ok_cons {E : List Err} {c : Cls} {cs : List Cls} (h : ClsOk E c) (hs : ∀ d ∈ cs, ClsOk E d) : ∀ d ∈ c :: cs, ClsOk E d := by
  intro d hd
  rcases List.mem_cons.1 hd with rfl | hd
  · exact h
  · exact hs d hd

theorem ok_both {E : List Err} {as bs : List Cls} (h : ∀ d ∈ as, ClsOk E d) (hs : ∀ d ∈ bs, ClsOk E d) : ∀ d ∈ as ++ bs, ClsOk E d := by
  intro d hd
  rcases List.mem_append.1 hd with hd | hd
  · exact h d hd
  · exact hs d hd

theorem firstMatch_some {s : Str} : ∀ {cs : List Cls} {c m}, firstMatch s cs = some (c, m) → c ∈ cs ∧ reMatch c.re s = some m
  | [], _, _, h => by cases h
  | d :: cs, c, m, h => by
    unfold firstMatch at h
    split at h
    · rename_i m' hm
      split at h
      · cases h; exact ⟨List.mem_cons_self, hm⟩
      · obtain ⟨a, b⟩ := firstMatch_some h; exact ⟨List.mem_cons_of_mem _ a, b⟩
    · obtain ⟨a, b⟩ := firstMatch_some h; exact ⟨List.mem_cons_of_mem _ a, b⟩

theorem union_sound {E : List Err} {cs : List Cls} (hE : .inp ∈ E) (h : ∀ c ∈ cs, ClsOk E c) (s : Str) :
    Out (· ∈ E) (unionParse cs s) ∧ ∀ v, unionParse cs s = .ok v → absOf v = .obj := by
  unfold unionParse
  split
  · exact ⟨.err hE, fun v hv => by cases hv⟩
  · rename_i c m hm
    obtain ⟨a, b⟩ := firstMatch_some hm
    exact (h c a).build b

theorem union_out {E : List Err} {cs : List Cls} (nm : String) (hE : .inp ∈ E) (h : ∀ c ∈ cs, ClsOk E c) : TyOut E (unionTy nm cs) :=
  fun s => union_sound hE h s

theorem asTy_out {E : List Err} {c : Cls} (nm : String) (hE : .inp ∈ E) (h : ∀ d ∈ [c], ClsOk E d) : TyOut E (c.asTy nm) :=
  fun s => union_sound hE h s

theorem embedded_out : TyOut toldErrs (.other "tme_1.Embedded" embeddedPat.re embeddedPat.ng embeddedParse) := by
  intro s
  unfold embeddedParse
  split
  · exact ⟨.err (by decide), fun v hv => by cases hv⟩
  · have key := tuple_sound (E := toldErrs) (a := ⟨"", .base .dist, true, none⟩) (t := .base .dist) trivial .eps 0 rfl (join [' '] (splitC '<' s))
    split
    · rename_i e he
      refine ⟨.err ?_, fun v hv => by cases hv⟩
      have := key e he
      simp [attrErrs, toldErrs] at this ⊢
      grind
    · exact ⟨.ok _, fun v hv => by cases hv; rfl⟩

theorem told_shorthand : toldErrs ⊆ shorthandErrs := by decide
theorem told_full : toldErrs ⊆ fullErrs := by decide
theorem shorthand_full : shorthandErrs ⊆ fullErrs := by decide

theorem card_sound {E : List Err} {c : Cls} (hE : .inp ∈ E) (h : ClsOk E c) (s : Str) : Out (· ∈ E) (cardParse c s) := by
  unfold cardParse
  split
  · exact .err hE
  · rename_i m hm
    split
    · rename_i e he; exact .err ((h.build hm).1 e he)
    · exact .ok _

theorem T_act_dneb_Bias_out : TyOut toldErrs Tab.T_act_dneb_Bias := asTy_out _ (by decide) (okAll (cs := [Tab.act_dneb_Bias]) (by decide +kernel))
theorem act_Dneb_ok : ClsOk toldErrs Tab.act_Dneb := ⟨by decide +kernel, by decide +kernel, ⟨T_act_dneb_Bias_out, trivial⟩⟩
theorem T_act_dgeb_Bias_out : TyOut toldErrs Tab.T_act_dgeb_Bias := asTy_out _ (by decide) (okAll (cs := [Tab.act_dgeb_Bias]) (by decide +kernel))
theorem act_Dgeb_ok : ClsOk toldErrs Tab.act_Dgeb := ⟨by decide +kernel, by decide +kernel, ⟨T_act_dgeb_Bias_out, trivial⟩⟩
theorem T_act_ActOption_out : TyOut shorthandErrs Tab.T_act_ActOption := union_out _ (by decide) (ok_both (okAll (cs := [Tab.act_Fission, Tab.act_Nonfiss, Tab.act_Dn, Tab.act_Dg, Tab.act_Thresh, Tab.act_Dnbais, Tab.act_Nap]) (by decide +kernel)) (ok_cons (act_Dneb_ok.mono told_shorthand) (ok_cons (act_Dgeb_ok.mono told_shorthand) (okAll (cs := [Tab.act_Pecut, Tab.act_Hlcut, Tab.act_Sample]) (by decide +kernel)))))
theorem Act_ok : ClsOk shorthandErrs Tab.Act := ⟨by decide +kernel, by decide +kernel, ⟨T_act_ActOption_out, trivial⟩⟩
theorem T_bfld_BfldOption_out : TyOut toldErrs Tab.T_bfld_BfldOption := union_out _ (by decide) (okAll (cs := [Tab.bfld_Field, Tab.bfld_Vec, Tab.bfld_Maxdeflc, Tab.bfld_Maxstep, Tab.bfld_Axs, Tab.bfld_Ffedges, Tab.bfld_Refpnt]) (by decide +kernel))
theorem Bfld_ok : ClsOk toldErrs Tab.Bfld := ⟨by decide +kernel, by decide +kernel, ⟨trivial, trivial, T_bfld_BfldOption_out, trivial⟩⟩
theorem T_dawwg_block_BlockOption_out : TyOut shorthandErrs Tab.T_dawwg_block_BlockOption := union_out _ (by decide) (okAll (cs := [Tab.dawwg_block_Ngroup, Tab.dawwg_block_Isn, Tab.dawwg_block_Niso, Tab.dawwg_block_Mt, Tab.dawwg_block_Iquad, Tab.dawwg_block_Fmmix, Tab.dawwg_block_Nosolv, Tab.dawwg_block_Noedit, Tab.dawwg_block_Nogeod, Tab.dawwg_block_Nomix, Tab.dawwg_block_Noasg, Tab.dawwg_block_Nomacr, Tab.dawwg_block_Noslnp, Tab.dawwg_block_Noedtt, Tab.dawwg_block_Noadjm, Tab.dawwg_block_Lib, Tab.dawwg_block_Libname, Tab.dawwg_block_Fissneut, Tab.dawwg_block_Lng, Tab.dawwg_block_Balxs, Tab.dawwg_block_Ntichi, Tab.dawwg_block_Ievt, Tab.dawwg_block_Isct, Tab.dawwg_block_Ith, Tab.dawwg_block_Trcor, Tab.dawwg_block_Ibl, Tab.dawwg_block_Ibr, Tab.dawwg_block_Ibt, Tab.dawwg_block_Ibb, Tab.dawwg_block_Ibfrnt, Tab.dawwg_block_Ibback, Tab.dawwg_block_Epsi, Tab.dawwg_block_Oitm, Tab.dawwg_block_Nosigf, Tab.dawwg_block_Srcacc, Tab.dawwg_block_Diffsol, Tab.dawwg_block_Tsasn, Tab.dawwg_block_Tsaepsi, Tab.dawwg_block_Tsaits, Tab.dawwg_block_Tsabeta, Tab.dawwg_block_Ptconv, Tab.dawwg_block_Norm, Tab.dawwg_block_Xsectp, Tab.dawwg_block_Fissrp, Tab.dawwg_block_Sourcp, Tab.dawwg_block_Angp, Tab.dawwg_block_Balp, Tab.dawwg_block_Raflux, Tab.dawwg_block_Rmflux, Tab.dawwg_block_Avatar, Tab.dawwg_block_Asleft, Tab.dawwg_block_Asrite, Tab.dawwg_block_Asbott, Tab.dawwg_block_Astop, Tab.dawwg_block_Asfrnt, Tab.dawwg_block_Asback, Tab.dawwg_block_Massed, Tab.dawwg_block_Pted, Tab.dawwg_block_Zned, Tab.dawwg_block_Rzflux, Tab.dawwg_block_Rzmflux, Tab.dawwg_block_Edoutf, Tab.dawwg_block_Byvolp, Tab.dawwg_block_Ajed, Tab.dawwg_block_Fluxone]) (by decide +kernel))
theorem dawwg_Block_ok : ClsOk shorthandErrs Tab.dawwg_Block := ⟨by decide +kernel, by decide +kernel, ⟨trivial, T_dawwg_block_BlockOption_out, trivial⟩⟩
theorem T_dawwg_DawwgOption_out : TyOut shorthandErrs Tab.T_dawwg_DawwgOption := union_out _ (by decide) (ok_both (okAll (cs := [Tab.dawwg_Points, Tab.dawwg_Xsec]) (by decide +kernel)) (ok_cons dawwg_Block_ok ok_nil))
theorem Dawwg_ok : ClsOk shorthandErrs Tab.Dawwg := ⟨by decide +kernel, by decide +kernel, ⟨T_dawwg_DawwgOption_out, trivial⟩⟩
theorem T_dd_Diagnostic_out : TyOut toldErrs Tab.T_dd_Diagnostic := asTy_out _ (by decide) (okAll (cs := [Tab.dd_Diagnostic]) (by decide +kernel))
theorem Dd_ok : ClsOk toldErrs Tab.Dd := ⟨by decide +kernel, by decide +kernel, ⟨trivial, T_dd_Diagnostic_out, trivial⟩⟩
theorem T_df_1_DfOption_1_out : TyOut shorthandErrs Tab.T_df_1_DfOption_1 := union_out _ (by decide) (okAll (cs := [Tab.df_1_Iu, Tab.df_1_Fac, Tab.df_1_Ic, Tab.df_1_Log, Tab.df_1_Lin]) (by decide +kernel))
theorem Df_1_ok : ClsOk shorthandErrs Tab.Df_1 := ⟨by decide +kernel, by decide +kernel, ⟨trivial, T_df_1_DfOption_1_out, trivial⟩⟩
theorem T_ds_1_Variables_out : TyOut toldErrs Tab.T_ds_1_Variables := asTy_out _ (by decide) (okAll (cs := [Tab.ds_1_Variables]) (by decide +kernel))
theorem Ds_1_ok : ClsOk toldErrs Tab.Ds_1 := ⟨by decide +kernel, by decide +kernel, ⟨trivial, T_ds_1_Variables_out, trivial⟩⟩
theorem T_ds_2_Variables_out : TyOut toldErrs Tab.T_ds_2_Variables := asTy_out _ (by decide) (okAll (cs := [Tab.ds_2_Variables]) (by decide +kernel))
theorem Ds_2_ok : ClsOk toldErrs Tab.Ds_2 := ⟨by decide +kernel, by decide +kernel, ⟨trivial, T_ds_2_Variables_out, trivial⟩⟩
theorem T_dxt_Shell_out : TyOut toldErrs Tab.T_dxt_Shell := asTy_out _ (by decide) (okAll (cs := [Tab.dxt_Shell]) (by decide +kernel))
theorem Dxt_ok : ClsOk toldErrs Tab.Dxt := ⟨by decide +kernel, by decide +kernel, ⟨trivial, T_dxt_Shell_out, T_dxt_Shell_out, T_dxt_Shell_out, T_dxt_Shell_out, T_dxt_Shell_out, T_dxt_Shell_out, T_dxt_Shell_out, T_dxt_Shell_out, T_dxt_Shell_out, T_dxt_Shell_out, trivial, trivial, trivial, trivial⟩⟩
theorem T_embed_matcell_Entry_out : TyOut shorthandErrs Tab.T_embed_matcell_Entry := asTy_out _ (by decide) (okAll (cs := [Tab.embed_matcell_Entry]) (by decide +kernel))
theorem embed_Matcell_ok : ClsOk shorthandErrs Tab.embed_Matcell := ⟨by decide +kernel, by decide +kernel, ⟨T_embed_matcell_Entry_out, trivial⟩⟩
theorem T_embed_EmbedOption_out : TyOut shorthandErrs Tab.T_embed_EmbedOption := union_out _ (by decide) (ok_both (okAll (cs := [Tab.embed_Background]) (by decide +kernel)) (ok_cons embed_Matcell_ok (okAll (cs := [Tab.embed_Meshgeo, Tab.embed_Mgeoin, Tab.embed_Meeout, Tab.embed_Meein, Tab.embed_Calcvols, Tab.embed_Debug, Tab.embed_Filetype, Tab.embed_Gmvfile, Tab.embed_Length, Tab.embed_Mcnpumfile]) (by decide +kernel))))
theorem Embed_ok : ClsOk shorthandErrs Tab.Embed := ⟨by decide +kernel, by decide +kernel, ⟨trivial, T_embed_EmbedOption_out, trivial⟩⟩
theorem T_embee_EmbeeOption_out : TyOut shorthandErrs Tab.T_embee_EmbeeOption := union_out _ (by decide) (okAll (cs := [Tab.embee_Embed, Tab.embee_Energy, Tab.embee_Time, Tab.embee_Atom, Tab.embee_Factor, Tab.embee_List, Tab.embee_Mat, Tab.embee_Mtype]) (by decide +kernel))
theorem Embee_ok : ClsOk shorthandErrs Tab.Embee := ⟨by decide +kernel, by decide +kernel, ⟨trivial, trivial, T_embee_EmbeeOption_out, trivial⟩⟩
theorem T_f_1_Sphere_out : TyOut toldErrs Tab.T_f_1_Sphere := asTy_out _ (by decide) (okAll (cs := [Tab.f_1_Sphere]) (by decide +kernel))
theorem F_1_ok : ClsOk toldErrs Tab.F_1 := ⟨by decide +kernel, by decide +kernel, ⟨trivial, trivial, trivial, T_f_1_Sphere_out, trivial, trivial⟩⟩
theorem T_f_2_Ring_out : TyOut toldErrs Tab.T_f_2_Ring := asTy_out _ (by decide) (okAll (cs := [Tab.f_2_Ring]) (by decide +kernel))
theorem F_2_ok : ClsOk toldErrs Tab.F_2 := ⟨by decide +kernel, by decide +kernel, ⟨trivial, trivial, trivial, trivial, T_f_2_Ring_out, trivial, trivial⟩⟩
theorem T_files_File_out : TyOut fullErrs Tab.T_files_File := asTy_out _ (by decide) (okAll (cs := [Tab.files_File]) (by decide +kernel))
theorem Files_ok : ClsOk fullErrs Tab.Files := ⟨by decide +kernel, by decide +kernel, ⟨T_files_File_out, trivial⟩⟩
theorem T_fmesh_FmeshOption_out : TyOut shorthandErrs Tab.T_fmesh_FmeshOption := union_out _ (by decide) (okAll (cs := [Tab.fmesh_Geom, Tab.fmesh_Origin, Tab.fmesh_Axs, Tab.fmesh_Vec, Tab.fmesh_Imesh, Tab.fmesh_Iints, Tab.fmesh_Jmesh, Tab.fmesh_Jints, Tab.fmesh_Kmesh, Tab.fmesh_Kints, Tab.fmesh_Emesh, Tab.fmesh_Eints, Tab.fmesh_Enorm, Tab.fmesh_Tmesh, Tab.fmesh_Tints, Tab.fmesh_Tnorm, Tab.fmesh_Factor, Tab.fmesh_Out, Tab.fmesh_Tr, Tab.fmesh_Inc, Tab.fmesh_Type, Tab.fmesh_Kclear]) (by decide +kernel))
theorem Fmesh_ok : ClsOk shorthandErrs Tab.Fmesh := ⟨by decide +kernel, by decide +kernel, ⟨trivial, trivial, T_fmesh_FmeshOption_out, trivial⟩⟩
theorem T_fmult_FmultOption_out : TyOut shorthandErrs Tab.T_fmult_FmultOption := union_out _ (by decide) (okAll (cs := [Tab.fmult_Sfnu, Tab.fmult_Width, Tab.fmult_Sfyield, Tab.fmult_Watt, Tab.fmult_Method, Tab.fmult_Data, Tab.fmult_Shift]) (by decide +kernel))
theorem Fmult_ok : ClsOk shorthandErrs Tab.Fmult := ⟨by decide +kernel, by decide +kernel, ⟨trivial, T_fmult_FmultOption_out, trivial⟩⟩
theorem T_kopts_KoptsOption_out : TyOut shorthandErrs Tab.T_kopts_KoptsOption := union_out _ (by decide) (okAll (cs := [Tab.kopts_Blocksize, Tab.kopts_Kinetics, Tab.kopts_Precursor, Tab.kopts_Ksental, Tab.kopts_Fmat, Tab.kopts_Fmatskpt, Tab.kopts_Fmatncyc, Tab.kopts_Fmatspace, Tab.kopts_Fmataccel, Tab.kopts_Fmatreduce, Tab.kopts_Fmatnx, Tab.kopts_Fmatny, Tab.kopts_Fmatnz]) (by decide +kernel))
theorem Kopts_ok : ClsOk shorthandErrs Tab.Kopts := ⟨by decide +kernel, by decide +kernel, ⟨T_kopts_KoptsOption_out, trivial⟩⟩
theorem T_kpert_KpertOption_out : TyOut toldErrs Tab.T_kpert_KpertOption := union_out _ (by decide) (okAll (cs := [Tab.kpert_Cell, Tab.kpert_Mat, Tab.kpert_Rho, Tab.kpert_Iso, Tab.kpert_Rxn, Tab.kpert_Erg, Tab.kpert_Linear]) (by decide +kernel))
theorem Kpert_ok : ClsOk toldErrs Tab.Kpert := ⟨by decide +kernel, by decide +kernel, ⟨trivial, T_kpert_KpertOption_out, trivial⟩⟩
theorem T_ksen_KsenOption_out : TyOut toldErrs Tab.T_ksen_KsenOption := union_out _ (by decide) (okAll (cs := [Tab.ksen_Iso, Tab.ksen_Rxn, Tab.ksen_Mt, Tab.ksen_Erg, Tab.ksen_Ein, Tab.ksen_Legendre, Tab.ksen_Cos, Tab.ksen_Constrain]) (by decide +kernel))
theorem Ksen_ok : ClsOk toldErrs Tab.Ksen := ⟨by decide +kernel, by decide +kernel, ⟨trivial, trivial, T_ksen_KsenOption_out, trivial⟩⟩
theorem T_ksrc_Location_out : TyOut toldErrs Tab.T_ksrc_Location := asTy_out _ (by decide) (okAll (cs := [Tab.ksrc_Location]) (by decide +kernel))
theorem Ksrc_ok : ClsOk toldErrs Tab.Ksrc := ⟨by decide +kernel, by decide +kernel, ⟨T_ksrc_Location_out, trivial⟩⟩
theorem T_m_0_MOption_0_out : TyOut shorthandErrs Tab.T_m_0_MOption_0 := union_out _ (by decide) (okAll (cs := [Tab.m_0_Gas, Tab.m_0_Estep, Tab.m_0_Hstep, Tab.m_0_Nlib, Tab.m_0_Plib, Tab.m_0_Pnlib, Tab.m_0_Elib, Tab.m_0_Hlib, Tab.m_0_Alib, Tab.m_0_Slib, Tab.m_0_Tlib, Tab.m_0_Dlib, Tab.m_0_Cond, Tab.m_0_Refi, Tab.m_0_Refc, Tab.m_0_Refs]) (by decide +kernel))
theorem M_0_ok : ClsOk shorthandErrs Tab.M_0 := ⟨by decide +kernel, by decide +kernel, ⟨trivial, trivial, T_m_0_MOption_0_out, trivial⟩⟩
theorem T_mesh_MeshOption_out : TyOut toldErrs Tab.T_mesh_MeshOption := union_out _ (by decide) (okAll (cs := [Tab.mesh_Geom, Tab.mesh_Ref, Tab.mesh_Origin, Tab.mesh_Axs, Tab.mesh_Vec, Tab.mesh_Imesh, Tab.mesh_Iints, Tab.mesh_Jmesh, Tab.mesh_Jints, Tab.mesh_Kmesh, Tab.mesh_Kints]) (by decide +kernel))
theorem Mesh_ok : ClsOk toldErrs Tab.Mesh := ⟨by decide +kernel, by decide +kernel, ⟨T_mesh_MeshOption_out, trivial⟩⟩
theorem T_mplot_free_FreeOption_out : TyOut toldErrs Tab.T_mplot_free_FreeOption := union_out _ (by decide) (okAll (cs := [Tab.mplot_free_All, Tab.mplot_free_Noall]) (by decide +kernel))
theorem mplot_Free_ok : ClsOk toldErrs Tab.mplot_Free := ⟨by decide +kernel, by decide +kernel, ⟨trivial, trivial, T_mplot_free_FreeOption_out, trivial⟩⟩
theorem T_mplot_contour_ContourOption_out : TyOut toldErrs Tab.T_mplot_contour_ContourOption := union_out _ (by decide) (okAll (cs := [Tab.mplot_contour_Pct, Tab.mplot_contour_Lin, Tab.mplot_contour_Log, Tab.mplot_contour_All, Tab.mplot_contour_Noall, Tab.mplot_contour_Line, Tab.mplot_contour_Noline, Tab.mplot_contour_Color, Tab.mplot_contour_Nocolor]) (by decide +kernel))
theorem mplot_Contour_ok : ClsOk toldErrs Tab.mplot_Contour := ⟨by decide +kernel, by decide +kernel, ⟨trivial, trivial, trivial, T_mplot_contour_ContourOption_out, trivial⟩⟩
theorem T_mplot_MplotOption_out : TyOut shorthandErrs Tab.T_mplot_MplotOption := union_out _ (by decide) (ok_both (okAll (cs := [Tab.mplot_Term, Tab.mplot_File, Tab.mplot_Coplot, Tab.mplot_Freq, Tab.mplot_Return, Tab.mplot_Plot, Tab.mplot_Pause, Tab.mplot_End, Tab.mplot_Options, Tab.mplot_Help, Tab.mplot_Status, Tab.mplot_Printal, Tab.mplot_Iptal, Tab.mplot_Printpts, Tab.mplot_Runtpe, Tab.mplot_Dump, Tab.mplot_Wmctal, Tab.mplot_Rmctal, Tab.mplot_Tally, Tab.mplot_Pert, Tab.mplot_Lethargy, Tab.mplot_Nonorm, Tab.mplot_Factor, Tab.mplot_Reset, Tab.mplot_Title, Tab.mplot_Below, Tab.mplot_Subtitle, Tab.mplot_Xtitle, Tab.mplot_Ytitle, Tab.mplot_Ztitle, Tab.mplot_Label]) (by decide +kernel)) (ok_cons (mplot_Free_ok.mono told_shorthand) (ok_both (okAll (cs := [Tab.mplot_Fixed, Tab.mplot_Set, Tab.mplot_Tfc, Tab.mplot_Kcode, Tab.mplot_Xs_0, Tab.mplot_Xs_1, Tab.mplot_Xs_2, Tab.mplot_Mt, Tab.mplot_Par, Tab.mplot_Linlin, Tab.mplot_Linlog, Tab.mplot_Loglin, Tab.mplot_Loglog, Tab.mplot_Xlims, Tab.mplot_Ylims, Tab.mplot_Scales, Tab.mplot_Hist, Tab.mplot_Plinear, Tab.mplot_Spline, Tab.mplot_Bar, Tab.mplot_Noerrbar, Tab.mplot_Thick, Tab.mplot_Thin, Tab.mplot_Legend]) (by decide +kernel)) (ok_cons (mplot_Contour_ok.mono told_shorthand) (okAll (cs := [Tab.mplot_Wash, Tab.mplot_Fmesh, Tab.mplot_Fmrelerr, Tab.mplot_Zlev, Tab.mplot_Ebin, Tab.mplot_Tbin, Tab.mplot_Cop, Tab.mplot_Tal]) (by decide +kernel))))))
theorem Mplot_ok : ClsOk shorthandErrs Tab.Mplot := ⟨by decide +kernel, by decide +kernel, ⟨T_mplot_MplotOption_out, trivial⟩⟩
theorem T_pert_PertOption_out : TyOut shorthandErrs Tab.T_pert_PertOption := union_out _ (by decide) (okAll (cs := [Tab.pert_Cell, Tab.pert_Mat, Tab.pert_Rho, Tab.pert_Method, Tab.pert_Erg, Tab.pert_Rxn]) (by decide +kernel))
theorem Pert_ok : ClsOk shorthandErrs Tab.Pert := ⟨by decide +kernel, by decide +kernel, ⟨trivial, trivial, T_pert_PertOption_out, trivial⟩⟩
theorem T_pikmt_Photonbias_out : TyOut toldErrs Tab.T_pikmt_Photonbias := asTy_out _ (by decide) (okAll (cs := [Tab.pikmt_Photonbias]) (by decide +kernel))
theorem Pikmt_ok : ClsOk toldErrs Tab.Pikmt := ⟨by decide +kernel, by decide +kernel, ⟨T_pikmt_Photonbias_out, trivial⟩⟩
theorem T_ptrac_filter_Entry_out : TyOut toldErrs Tab.T_ptrac_filter_Entry := asTy_out _ (by decide) (okAll (cs := [Tab.ptrac_filter_Entry]) (by decide +kernel))
theorem ptrac_Filter_ok : ClsOk toldErrs Tab.ptrac_Filter := ⟨by decide +kernel, by decide +kernel, ⟨T_ptrac_filter_Entry_out, trivial⟩⟩
theorem T_ptrac_PtracOption_out : TyOut shorthandErrs Tab.T_ptrac_PtracOption := union_out _ (by decide) (ok_both (okAll (cs := [Tab.ptrac_Buffer, Tab.ptrac_File, Tab.ptrac_Max, Tab.ptrac_Meph, Tab.ptrac_Write, Tab.ptrac_Conic, Tab.ptrac_Event]) (by decide +kernel)) (ok_cons (ptrac_Filter_ok.mono told_shorthand) (okAll (cs := [Tab.ptrac_Type, Tab.ptrac_Nps, Tab.ptrac_Cell, Tab.ptrac_Surface, Tab.ptrac_Tally, Tab.ptrac_Value]) (by decide +kernel))))
theorem Ptrac_ok : ClsOk shorthandErrs Tab.Ptrac := ⟨by decide +kernel, by decide +kernel, ⟨T_ptrac_PtracOption_out, trivial⟩⟩
theorem T_rand_RandOption_out : TyOut shorthandErrs Tab.T_rand_RandOption := union_out _ (by decide) (okAll (cs := [Tab.rand_Gen, Tab.rand_Seed, Tab.rand_Stride, Tab.rand_Hist]) (by decide +kernel))
theorem Rand_ok : ClsOk shorthandErrs Tab.Rand := ⟨by decide +kernel, by decide +kernel, ⟨T_rand_RandOption_out, trivial⟩⟩
theorem T_sdef_f_FOption_out : TyOut toldErrs Tab.T_sdef_f_FOption := union_out _ (by decide) (okAll (cs := [Tab.sdef_f_Fcel, Tab.sdef_f_Fsur, Tab.sdef_f_Ferg, Tab.sdef_f_Ftme, Tab.sdef_f_Fdir, Tab.sdef_f_Fvec, Tab.sdef_f_Fnrm, Tab.sdef_f_Fpos, Tab.sdef_f_Frad, Tab.sdef_f_Fext, Tab.sdef_f_Faxs, Tab.sdef_f_Fx, Tab.sdef_f_Fy, Tab.sdef_f_Fz, Tab.sdef_f_Fccc, Tab.sdef_f_Fara, Tab.sdef_f_Fwgt, Tab.sdef_f_Ftr, Tab.sdef_f_Feff, Tab.sdef_f_Fpar, Tab.sdef_f_Fdat, Tab.sdef_f_Floc, Tab.sdef_f_Fbem, Tab.sdef_f_Fbap]) (by decide +kernel))
theorem sdef_Ara_1_ok : ClsOk toldErrs Tab.sdef_Ara_1 := ⟨by decide +kernel, by decide +kernel, ⟨T_sdef_f_FOption_out, trivial⟩⟩
theorem sdef_Axs_1_ok : ClsOk toldErrs Tab.sdef_Axs_1 := ⟨by decide +kernel, by decide +kernel, ⟨T_sdef_f_FOption_out, trivial⟩⟩
theorem sdef_Bap_1_ok : ClsOk toldErrs Tab.sdef_Bap_1 := ⟨by decide +kernel, by decide +kernel, ⟨T_sdef_f_FOption_out, trivial⟩⟩
theorem sdef_Bem_1_ok : ClsOk toldErrs Tab.sdef_Bem_1 := ⟨by decide +kernel, by decide +kernel, ⟨T_sdef_f_FOption_out, trivial⟩⟩
theorem sdef_Ccc_1_ok : ClsOk toldErrs Tab.sdef_Ccc_1 := ⟨by decide +kernel, by decide +kernel, ⟨T_sdef_f_FOption_out, trivial⟩⟩
theorem sdef_Cel_2_ok : ClsOk toldErrs Tab.sdef_Cel_2 := ⟨by decide +kernel, by decide +kernel, ⟨T_sdef_f_FOption_out, trivial⟩⟩
theorem sdef_Dat_1_ok : ClsOk toldErrs Tab.sdef_Dat_1 := ⟨by decide +kernel, by decide +kernel, ⟨T_sdef_f_FOption_out, trivial⟩⟩
theorem sdef_Dir_2_ok : ClsOk toldErrs Tab.sdef_Dir_2 := ⟨by decide +kernel, by decide +kernel, ⟨T_sdef_f_FOption_out, trivial⟩⟩
theorem sdef_Eff_1_ok : ClsOk toldErrs Tab.sdef_Eff_1 := ⟨by decide +kernel, by decide +kernel, ⟨T_sdef_f_FOption_out, trivial⟩⟩
theorem sdef_Erg_2_ok : ClsOk toldErrs Tab.sdef_Erg_2 := ⟨by decide +kernel, by decide +kernel, ⟨T_sdef_f_FOption_out, trivial⟩⟩
theorem sdef_Ext_2_ok : ClsOk toldErrs Tab.sdef_Ext_2 := ⟨by decide +kernel, by decide +kernel, ⟨T_sdef_f_FOption_out, trivial⟩⟩
theorem sdef_Loc_1_ok : ClsOk toldErrs Tab.sdef_Loc_1 := ⟨by decide +kernel, by decide +kernel, ⟨T_sdef_f_FOption_out, trivial⟩⟩
theorem sdef_Nrm_1_ok : ClsOk toldErrs Tab.sdef_Nrm_1 := ⟨by decide +kernel, by decide +kernel, ⟨T_sdef_f_FOption_out, trivial⟩⟩
theorem sdef_Par_1_ok : ClsOk toldErrs Tab.sdef_Par_1 := ⟨by decide +kernel, by decide +kernel, ⟨T_sdef_f_FOption_out, trivial⟩⟩
theorem sdef_Pos_2_ok : ClsOk toldErrs Tab.sdef_Pos_2 := ⟨by decide +kernel, by decide +kernel, ⟨T_sdef_f_FOption_out, trivial⟩⟩
theorem sdef_Rad_2_ok : ClsOk toldErrs Tab.sdef_Rad_2 := ⟨by decide +kernel, by decide +kernel, ⟨T_sdef_f_FOption_out, trivial⟩⟩
theorem sdef_Sur_1_ok : ClsOk toldErrs Tab.sdef_Sur_1 := ⟨by decide +kernel, by decide +kernel, ⟨T_sdef_f_FOption_out, trivial⟩⟩
theorem sdef_Tme_1_ok : ClsOk toldErrs Tab.sdef_Tme_1 := ⟨by decide +kernel, by decide +kernel, ⟨embedded_out, trivial⟩⟩
theorem sdef_Tme_2_ok : ClsOk toldErrs Tab.sdef_Tme_2 := ⟨by decide +kernel, by decide +kernel, ⟨T_sdef_f_FOption_out, trivial⟩⟩
theorem sdef_Tr_2_ok : ClsOk toldErrs Tab.sdef_Tr_2 := ⟨by decide +kernel, by decide +kernel, ⟨T_sdef_f_FOption_out, trivial⟩⟩
theorem sdef_Vec_1_ok : ClsOk toldErrs Tab.sdef_Vec_1 := ⟨by decide +kernel, by decide +kernel, ⟨T_sdef_f_FOption_out, trivial⟩⟩
theorem sdef_Wgt_1_ok : ClsOk toldErrs Tab.sdef_Wgt_1 := ⟨by decide +kernel, by decide +kernel, ⟨T_sdef_f_FOption_out, trivial⟩⟩
theorem sdef_X_2_ok : ClsOk toldErrs Tab.sdef_X_2 := ⟨by decide +kernel, by decide +kernel, ⟨T_sdef_f_FOption_out, trivial⟩⟩
theorem sdef_Y_2_ok : ClsOk toldErrs Tab.sdef_Y_2 := ⟨by decide +kernel, by decide +kernel, ⟨T_sdef_f_FOption_out, trivial⟩⟩
theorem sdef_Z_2_ok : ClsOk toldErrs Tab.sdef_Z_2 := ⟨by decide +kernel, by decide +kernel, ⟨T_sdef_f_FOption_out, trivial⟩⟩
theorem T_sdef_SdefOption_out : TyOut shorthandErrs Tab.T_sdef_SdefOption := union_out _ (by decide) (ok_both (okAll (cs := [Tab.sdef_Ara_0]) (by decide +kernel)) (ok_cons (sdef_Ara_1_ok.mono told_shorthand) (ok_both (okAll (cs := [Tab.sdef_Axs_0]) (by decide +kernel)) (ok_cons (sdef_Axs_1_ok.mono told_shorthand) (ok_both (okAll (cs := [Tab.sdef_Bap_0]) (by decide +kernel)) (ok_cons (sdef_Bap_1_ok.mono told_shorthand) (ok_both (okAll (cs := [Tab.sdef_Bem_0]) (by decide +kernel)) (ok_cons (sdef_Bem_1_ok.mono told_shorthand) (ok_both (okAll (cs := [Tab.sdef_Ccc_0]) (by decide +kernel)) (ok_cons (sdef_Ccc_1_ok.mono told_shorthand) (ok_both (okAll (cs := [Tab.sdef_Cel_0, Tab.sdef_Cel_1]) (by decide +kernel)) (ok_cons (sdef_Cel_2_ok.mono told_shorthand) (ok_both (okAll (cs := [Tab.sdef_Dat_0]) (by decide +kernel)) (ok_cons (sdef_Dat_1_ok.mono told_shorthand) (ok_both (okAll (cs := [Tab.sdef_Dir_1]) (by decide +kernel)) (ok_cons (sdef_Dir_2_ok.mono told_shorthand) (ok_both (okAll (cs := [Tab.sdef_Dir_0, Tab.sdef_Eff_0]) (by decide +kernel)) (ok_cons (sdef_Eff_1_ok.mono told_shorthand) (ok_both (okAll (cs := [Tab.sdef_Erg_0, Tab.sdef_Erg_1]) (by decide +kernel)) (ok_cons (sdef_Erg_2_ok.mono told_shorthand) (ok_both (okAll (cs := [Tab.sdef_Ext_0, Tab.sdef_Ext_1]) (by decide +kernel)) (ok_cons (sdef_Ext_2_ok.mono told_shorthand) (ok_both (okAll (cs := [Tab.sdef_Loc_0]) (by decide +kernel)) (ok_cons (sdef_Loc_1_ok.mono told_shorthand) (ok_both (okAll (cs := [Tab.sdef_Nrm_0]) (by decide +kernel)) (ok_cons (sdef_Nrm_1_ok.mono told_shorthand) (ok_both (okAll (cs := [Tab.sdef_Par_0]) (by decide +kernel)) (ok_cons (sdef_Par_1_ok.mono told_shorthand) (ok_both (okAll (cs := [Tab.sdef_Pos_0, Tab.sdef_Pos_1]) (by decide +kernel)) (ok_cons (sdef_Pos_2_ok.mono told_shorthand) (ok_both (okAll (cs := [Tab.sdef_Rad_0, Tab.sdef_Rad_1]) (by decide +kernel)) (ok_cons (sdef_Rad_2_ok.mono told_shorthand) (ok_both (okAll (cs := [Tab.sdef_Sur_0]) (by decide +kernel)) (ok_cons (sdef_Sur_1_ok.mono told_shorthand) (ok_both (okAll (cs := [Tab.sdef_Tme_0]) (by decide +kernel)) (ok_cons (sdef_Tme_1_ok.mono told_shorthand) (ok_cons (sdef_Tme_2_ok.mono told_shorthand) (ok_both (okAll (cs := [Tab.sdef_Tr_0, Tab.sdef_Tr_1]) (by decide +kernel)) (ok_cons (sdef_Tr_2_ok.mono told_shorthand) (ok_both (okAll (cs := [Tab.sdef_Vec_0]) (by decide +kernel)) (ok_cons (sdef_Vec_1_ok.mono told_shorthand) (ok_both (okAll (cs := [Tab.sdef_Wgt_0]) (by decide +kernel)) (ok_cons (sdef_Wgt_1_ok.mono told_shorthand) (ok_both (okAll (cs := [Tab.sdef_X_0, Tab.sdef_X_1]) (by decide +kernel)) (ok_cons (sdef_X_2_ok.mono told_shorthand) (ok_both (okAll (cs := [Tab.sdef_Y_0, Tab.sdef_Y_1]) (by decide +kernel)) (ok_cons (sdef_Y_2_ok.mono told_shorthand) (ok_both (okAll (cs := [Tab.sdef_Z_0, Tab.sdef_Z_1]) (by decide +kernel)) (ok_cons (sdef_Z_2_ok.mono told_shorthand) ok_nil)))))))))))))))))))))))))))))))))))))))))))))))))
theorem Sdef_ok : ClsOk shorthandErrs Tab.Sdef := ⟨by decide +kernel, by decide +kernel, ⟨T_sdef_SdefOption_out, trivial⟩⟩
theorem T_ssr_SsrOption_out : TyOut shorthandErrs Tab.T_ssr_SsrOption := union_out _ (by decide) (okAll (cs := [Tab.ssr_Old, Tab.ssr_Cel, Tab.ssr_New, Tab.ssr_Pty, Tab.ssr_Col, Tab.ssr_Wgt, Tab.ssr_Tr_0, Tab.ssr_Tr_1, Tab.ssr_Psc, Tab.ssr_Axs, Tab.ssr_Ext, Tab.ssr_Poa, Tab.ssr_Bcw]) (by decide +kernel))
theorem Ssr_ok : ClsOk shorthandErrs Tab.Ssr := ⟨by decide +kernel, by decide +kernel, ⟨T_ssr_SsrOption_out, trivial⟩⟩
theorem T_ssw_SswOption_out : TyOut shorthandErrs Tab.T_ssw_SswOption := union_out _ (by decide) (okAll (cs := [Tab.ssw_Sym, Tab.ssw_Pty, Tab.ssw_Cel]) (by decide +kernel))
theorem Ssw_ok : ClsOk shorthandErrs Tab.Ssw := ⟨by decide +kernel, by decide +kernel, ⟨trivial, trivial, T_ssw_SswOption_out, trivial⟩⟩
theorem T_stop_StopOption_out : TyOut toldErrs Tab.T_stop_StopOption := union_out _ (by decide) (okAll (cs := [Tab.stop_Nps, Tab.stop_Ctme, Tab.stop_F]) (by decide +kernel))
theorem Stop_ok : ClsOk toldErrs Tab.Stop := ⟨by decide +kernel, by decide +kernel, ⟨T_stop_StopOption_out, trivial⟩⟩
theorem T_t_1_TOption_1_out : TyOut toldErrs Tab.T_t_1_TOption_1 := union_out _ (by decide) (okAll (cs := [Tab.t_1_Cbeg, Tab.t_1_Cfrq, Tab.t_1_Cofi, Tab.t_1_Coni, Tab.t_1_Csub, Tab.t_1_Cend]) (by decide +kernel))
theorem T_1_ok : ClsOk toldErrs Tab.T_1 := ⟨by decide +kernel, by decide +kernel, ⟨trivial, T_t_1_TOption_1_out, trivial⟩⟩
theorem T_tropt_TroptOption_out : TyOut toldErrs Tab.T_tropt_TroptOption := union_out _ (by decide) (okAll (cs := [Tab.tropt_Mcscat, Tab.tropt_Eloss, Tab.tropt_Nreact, Tab.tropt_Nescat, Tab.tropt_Genxs]) (by decide +kernel))
theorem Tropt_ok : ClsOk toldErrs Tab.Tropt := ⟨by decide +kernel, by decide +kernel, ⟨T_tropt_TroptOption_out, trivial⟩⟩
theorem T_uran_Stochastic_out : TyOut shorthandErrs Tab.T_uran_Stochastic := asTy_out _ (by decide) (okAll (cs := [Tab.uran_Stochastic]) (by decide +kernel))
theorem Uran_ok : ClsOk shorthandErrs Tab.Uran := ⟨by decide +kernel, by decide +kernel, ⟨T_uran_Stochastic_out, trivial⟩⟩
theorem T_var_VarOption_out : TyOut toldErrs Tab.T_var_VarOption := union_out _ (by decide) (okAll (cs := [Tab.var_Rr]) (by decide +kernel))
theorem Var_ok : ClsOk toldErrs Tab.Var := ⟨by decide +kernel, by decide +kernel, ⟨T_var_VarOption_out, trivial⟩⟩
theorem T_cell_CellOption_out : TyOut fullErrs Tab.T_cell_CellOption := union_out _ (by decide) (okAll (cs := [Tab.cell_Imp, Tab.cell_Vol, Tab.cell_Pwt, Tab.cell_Ext, Tab.cell_Fcl, Tab.cell_Wwn, Tab.cell_Dxc, Tab.cell_Nonu, Tab.cell_Pd, Tab.cell_U, Tab.cell_Trcl_1, Tab.cell_Trcl_2, Tab.cell_Trcl_3, Tab.cell_Trcl_4, Tab.cell_Trcl_5, Tab.cell_Trcl_0, Tab.cell_Lat, Tab.cell_Fill_0, Tab.cell_Fill_1, Tab.cell_Fill_2, Tab.cell_Fill_3, Tab.cell_Fill_4, Tab.cell_Fill_5, Tab.cell_Fill_6, Tab.cell_Elpt, Tab.cell_Tmp, Tab.cell_Cosy, Tab.cell_Bflcl, Tab.cell_Unc]) (by decide +kernel))
theorem Cell_ok : ClsOk fullErrs Tab.Cell := ⟨by decide +kernel, by decide +kernel, ⟨trivial, trivial, trivial, trivial, T_cell_CellOption_out, trivial⟩⟩
theorem T_surface_SurfaceOption_out : TyOut planeErrs Tab.T_surface_SurfaceOption := union_out _ (by decide) (okAll (cs := [Tab.surface_P_0, Tab.surface_P_1, Tab.surface_Px, Tab.surface_Py, Tab.surface_Pz, Tab.surface_So, Tab.surface_S, Tab.surface_Sx, Tab.surface_Sy, Tab.surface_Sz, Tab.surface_C_x, Tab.surface_C_y, Tab.surface_C_z, Tab.surface_Cx, Tab.surface_Cy, Tab.surface_Cz, Tab.surface_K_x, Tab.surface_K_y, Tab.surface_K_z, Tab.surface_Kx, Tab.surface_Ky, Tab.surface_Kz, Tab.surface_Sq, Tab.surface_Gq, Tab.surface_Tx, Tab.surface_Ty, Tab.surface_Tz, Tab.surface_X, Tab.surface_Y, Tab.surface_Z, Tab.surface_Box, Tab.surface_Rpp, Tab.surface_Sph, Tab.surface_Rcc, Tab.surface_Rhp, Tab.surface_Rec, Tab.surface_Trc, Tab.surface_Ell, Tab.surface_Wed, Tab.surface_Arb]) (by decide +kernel))
theorem T_like_LikeOption_out : TyOut fullErrs Tab.T_like_LikeOption := union_out _ (by decide) (okAll (cs := [Tab.like_Imp, Tab.like_Vol, Tab.like_Pwt, Tab.like_Ext, Tab.like_Fcl, Tab.like_Wwn, Tab.like_Dxc, Tab.like_Nonu, Tab.like_Pd, Tab.like_U, Tab.like_Trcl_1, Tab.like_Trcl_2, Tab.like_Trcl_3, Tab.like_Trcl_4, Tab.like_Trcl_5, Tab.like_Trcl_0, Tab.like_Lat, Tab.like_Mat, Tab.like_Fill_0, Tab.like_Fill_1, Tab.like_Fill_2, Tab.like_Fill_3, Tab.like_Fill_4, Tab.like_Fill_5, Tab.like_Fill_6, Tab.like_Elpt, Tab.like_Rho, Tab.like_Tmp, Tab.like_Cosy, Tab.like_Bflcl, Tab.like_Unc]) (by decide +kernel))
theorem Like_ok : ClsOk fullErrs Tab.Like := ⟨by decide +kernel, by decide +kernel, ⟨trivial, trivial, T_like_LikeOption_out, trivial⟩⟩

theorem quiet_ok : ∀ c ∈ quietCards, ClsOk toldErrs c := (ok_both (okAll (cs := [Tab.Area, Tab.Awtab, Tab.Bbrem, Tab.Bflcl]) (by decide +kernel)) (ok_cons Bfld_ok (ok_both (okAll (cs := [Tab.C, Tab.Cf, Tab.Cm, Tab.Cosy, Tab.Cut]) (by decide +kernel)) (ok_cons Dd_ok (ok_both (okAll (cs := [Tab.De, Tab.Df_0, Tab.Dm, Tab.Drxs, Tab.Ds_0]) (by decide +kernel)) (ok_cons Ds_1_ok (ok_cons Ds_2_ok (ok_both (okAll (cs := [Tab.Ds_3, Tab.Dxc]) (by decide +kernel)) (ok_cons Dxt_ok (ok_both (okAll (cs := [Tab.E, Tab.Elpt, Tab.Em, Tab.Embdb, Tab.Embdf, Tab.Embeb, Tab.Embem, Tab.Embtb, Tab.Embtm, Tab.Esplt, Tab.Ext, Tab.F_0]) (by decide +kernel)) (ok_cons F_1_ok (ok_cons F_2_ok (ok_both (okAll (cs := [Tab.F_3, Tab.Fc, Tab.Fcl, Tab.Fill, Tab.Fm, Tab.Fq, Tab.Fs, Tab.Ft, Tab.Fu, Tab.Histp, Tab.Idum, Tab.Imp]) (by decide +kernel)) (ok_cons Kpert_ok (ok_cons Ksen_ok (ok_cons Ksrc_ok (ok_both (okAll (cs := [Tab.Lat, Tab.Lca, Tab.Lcb, Tab.M_1]) (by decide +kernel)) (ok_cons Mesh_ok (ok_both (okAll (cs := [Tab.Mode, Tab.Mphys, Tab.Mt, Tab.Mx, Tab.Nonu, Tab.Notrn, Tab.Otfdb, Tab.Pd]) (by decide +kernel)) (ok_cons Pikmt_ok (ok_both (okAll (cs := [Tab.Prdmp, Tab.Print, Tab.Pwt, Tab.Rdum, Tab.Sb_0, Tab.Sc, Tab.Sd, Tab.Sf, Tab.Si_0, Tab.Si_1, Tab.Si_2, Tab.Sp_0, Tab.Spdtl]) (by decide +kernel)) (ok_cons Stop_ok (ok_both (okAll (cs := [Tab.T_0]) (by decide +kernel)) (ok_cons T_1_ok (ok_both (okAll (cs := [Tab.Talnp, Tab.Tf_0, Tab.Tf_1, Tab.Thtme, Tab.Tm, Tab.Tmp, Tab.Totnu, Tab.Tr_0, Tab.Tr_1, Tab.Tr_2, Tab.Tr_3, Tab.Tr_4]) (by decide +kernel)) (ok_cons Tropt_ok (ok_both (okAll (cs := [Tab.Tsplt, Tab.U, Tab.Unc]) (by decide +kernel)) (ok_cons Var_ok (okAll (cs := [Tab.Void, Tab.Vol, Tab.Wwe, Tab.Wwge, Tab.Wwgt, Tab.Wwn, Tab.Wwt, Tab.Xs, Tab.Za, Tab.Zb, Tab.Zc, Tab.Zd, Tab.Comment]) (by decide +kernel))))))))))))))))))))))))))))))

theorem plain_ok : ∀ c ∈ plainCards, ClsOk shorthandErrs c := (ok_cons Act_ok (ok_both (okAll (cs := [Tab.Cosyp, Tab.Ctme]) (by decide +kernel)) (ok_cons Dawwg_ok (ok_both (okAll (cs := [Tab.Dbcn]) (by decide +kernel)) (ok_cons Df_1_ok (ok_cons Embed_ok (ok_cons Embee_ok (ok_both (okAll (cs := [Tab.Fic, Tab.Fip, Tab.Fir]) (by decide +kernel)) (ok_cons Fmesh_ok (ok_cons Fmult_ok (ok_both (okAll (cs := [Tab.Hsrc, Tab.Kcode]) (by decide +kernel)) (ok_cons Kopts_ok (ok_both (okAll (cs := [Tab.Lcc, Tab.Lea, Tab.Leb, Tab.Lost]) (by decide +kernel)) (ok_cons M_0_ok (ok_both (okAll (cs := [Tab.Mgopt]) (by decide +kernel)) (ok_cons Mplot_ok (ok_both (okAll (cs := [Tab.Nps]) (by decide +kernel)) (ok_cons Pert_ok (ok_both (okAll (cs := [Tab.Phys_0, Tab.Phys_1, Tab.Phys_3, Tab.Phys_4]) (by decide +kernel)) (ok_cons Ptrac_ok (ok_cons Rand_ok (ok_both (okAll (cs := [Tab.Sb_1]) (by decide +kernel)) (ok_cons Sdef_ok (ok_both (okAll (cs := [Tab.Sp_1]) (by decide +kernel)) (ok_cons Ssr_ok (ok_cons Ssw_ok (ok_cons Uran_ok (okAll (cs := [Tab.Wwg, Tab.Wwp]) (by decide +kernel)))))))))))))))))))))))))))))

theorem odd_ok : ∀ c ∈ oddCards, ClsOk fullErrs c := (ok_both (okAll (cs := [Tab.F_4]) (by decide +kernel)) (ok_cons Files_ok (okAll (cs := [Tab.Phys_2]) (by decide +kernel))))

end Inp
