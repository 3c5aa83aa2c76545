import Verif.Inp.CaseCards
/-! Helper lemmas: the classes of the table read texts alike whatever the case of letters. -/
namespace Inp
open Py Types Ptrac

theorem T_act_dneb_Bias_case : TyCase Tab.T_act_dneb_Bias := asTy_case _ (caseAll (cs := [Tab.act_dneb_Bias]) (by decide +kernel))
theorem act_Dneb_case : ClsCase Tab.act_Dneb := ⟨by decide +kernel, by decide +kernel, ⟨T_act_dneb_Bias_case, trivial⟩⟩
theorem T_act_dgeb_Bias_case : TyCase Tab.T_act_dgeb_Bias := asTy_case _ (caseAll (cs := [Tab.act_dgeb_Bias]) (by decide +kernel))
theorem act_Dgeb_case : ClsCase Tab.act_Dgeb := ⟨by decide +kernel, by decide +kernel, ⟨T_act_dgeb_Bias_case, trivial⟩⟩
theorem T_act_ActOption_case : TyCase Tab.T_act_ActOption := union_case _ (case_both (caseAll (cs := [Tab.act_Fission, Tab.act_Nonfiss, Tab.act_Dn, Tab.act_Dg, Tab.act_Thresh, Tab.act_Dnbais, Tab.act_Nap]) (by decide +kernel)) (case_cons act_Dneb_case (case_cons act_Dgeb_case (caseAll (cs := [Tab.act_Pecut, Tab.act_Hlcut, Tab.act_Sample]) (by decide +kernel)))))
theorem Act_case : ClsCase Tab.Act := ⟨by decide +kernel, by decide +kernel, ⟨T_act_ActOption_case, trivial⟩⟩
theorem T_bfld_BfldOption_case : TyCase Tab.T_bfld_BfldOption := union_case _ (caseAll (cs := [Tab.bfld_Field, Tab.bfld_Vec, Tab.bfld_Maxdeflc, Tab.bfld_Maxstep, Tab.bfld_Axs, Tab.bfld_Ffedges, Tab.bfld_Refpnt]) (by decide +kernel))
theorem Bfld_case : ClsCase Tab.Bfld := ⟨by decide +kernel, by decide +kernel, ⟨trivial, trivial, T_bfld_BfldOption_case, trivial⟩⟩
theorem T_dawwg_block_BlockOption_case : TyCase Tab.T_dawwg_block_BlockOption := union_case _ (caseAll (cs := [Tab.dawwg_block_Ngroup, Tab.dawwg_block_Isn, Tab.dawwg_block_Niso, Tab.dawwg_block_Mt, Tab.dawwg_block_Iquad, Tab.dawwg_block_Fmmix, Tab.dawwg_block_Nosolv, Tab.dawwg_block_Noedit, Tab.dawwg_block_Nogeod, Tab.dawwg_block_Nomix, Tab.dawwg_block_Noasg, Tab.dawwg_block_Nomacr, Tab.dawwg_block_Noslnp, Tab.dawwg_block_Noedtt, Tab.dawwg_block_Noadjm, Tab.dawwg_block_Lib, Tab.dawwg_block_Libname, Tab.dawwg_block_Fissneut, Tab.dawwg_block_Lng, Tab.dawwg_block_Balxs, Tab.dawwg_block_Ntichi, Tab.dawwg_block_Ievt, Tab.dawwg_block_Isct, Tab.dawwg_block_Ith, Tab.dawwg_block_Trcor, Tab.dawwg_block_Ibl, Tab.dawwg_block_Ibr, Tab.dawwg_block_Ibt, Tab.dawwg_block_Ibb, Tab.dawwg_block_Ibfrnt, Tab.dawwg_block_Ibback, Tab.dawwg_block_Epsi, Tab.dawwg_block_Oitm, Tab.dawwg_block_Nosigf, Tab.dawwg_block_Srcacc, Tab.dawwg_block_Diffsol, Tab.dawwg_block_Tsasn, Tab.dawwg_block_Tsaepsi, Tab.dawwg_block_Tsaits, Tab.dawwg_block_Tsabeta, Tab.dawwg_block_Ptconv, Tab.dawwg_block_Norm, Tab.dawwg_block_Xsectp, Tab.dawwg_block_Fissrp, Tab.dawwg_block_Sourcp, Tab.dawwg_block_Angp, Tab.dawwg_block_Balp, Tab.dawwg_block_Raflux, Tab.dawwg_block_Rmflux, Tab.dawwg_block_Avatar, Tab.dawwg_block_Asleft, Tab.dawwg_block_Asrite, Tab.dawwg_block_Asbott, Tab.dawwg_block_Astop, Tab.dawwg_block_Asfrnt, Tab.dawwg_block_Asback, Tab.dawwg_block_Massed, Tab.dawwg_block_Pted, Tab.dawwg_block_Zned, Tab.dawwg_block_Rzflux, Tab.dawwg_block_Rzmflux, Tab.dawwg_block_Edoutf, Tab.dawwg_block_Byvolp, Tab.dawwg_block_Ajed, Tab.dawwg_block_Fluxone]) (by decide +kernel))
theorem dawwg_Block_case : ClsCase Tab.dawwg_Block := ⟨by decide +kernel, by decide +kernel, ⟨trivial, T_dawwg_block_BlockOption_case, trivial⟩⟩
theorem T_dawwg_DawwgOption_case : TyCase Tab.T_dawwg_DawwgOption := union_case _ (case_both (caseAll (cs := [Tab.dawwg_Points, Tab.dawwg_Xsec]) (by decide +kernel)) (case_cons dawwg_Block_case case_nil))
theorem Dawwg_case : ClsCase Tab.Dawwg := ⟨by decide +kernel, by decide +kernel, ⟨T_dawwg_DawwgOption_case, trivial⟩⟩
theorem T_dd_Diagnostic_case : TyCase Tab.T_dd_Diagnostic := asTy_case _ (caseAll (cs := [Tab.dd_Diagnostic]) (by decide +kernel))
theorem Dd_case : ClsCase Tab.Dd := ⟨by decide +kernel, by decide +kernel, ⟨trivial, T_dd_Diagnostic_case, trivial⟩⟩
theorem T_df_1_DfOption_1_case : TyCase Tab.T_df_1_DfOption_1 := union_case _ (caseAll (cs := [Tab.df_1_Iu, Tab.df_1_Fac, Tab.df_1_Ic, Tab.df_1_Log, Tab.df_1_Lin]) (by decide +kernel))
theorem Df_1_case : ClsCase Tab.Df_1 := ⟨by decide +kernel, by decide +kernel, ⟨trivial, T_df_1_DfOption_1_case, trivial⟩⟩
theorem T_ds_1_Variables_case : TyCase Tab.T_ds_1_Variables := asTy_case _ (caseAll (cs := [Tab.ds_1_Variables]) (by decide +kernel))
theorem Ds_1_case : ClsCase Tab.Ds_1 := ⟨by decide +kernel, by decide +kernel, ⟨trivial, T_ds_1_Variables_case, trivial⟩⟩
theorem T_ds_2_Variables_case : TyCase Tab.T_ds_2_Variables := asTy_case _ (caseAll (cs := [Tab.ds_2_Variables]) (by decide +kernel))
theorem Ds_2_case : ClsCase Tab.Ds_2 := ⟨by decide +kernel, by decide +kernel, ⟨trivial, T_ds_2_Variables_case, trivial⟩⟩
theorem T_dxt_Shell_case : TyCase Tab.T_dxt_Shell := asTy_case _ (caseAll (cs := [Tab.dxt_Shell]) (by decide +kernel))
theorem Dxt_case : ClsCase Tab.Dxt := ⟨by decide +kernel, by decide +kernel, ⟨trivial, T_dxt_Shell_case, T_dxt_Shell_case, T_dxt_Shell_case, T_dxt_Shell_case, T_dxt_Shell_case, T_dxt_Shell_case, T_dxt_Shell_case, T_dxt_Shell_case, T_dxt_Shell_case, T_dxt_Shell_case, trivial, trivial, trivial, trivial⟩⟩
theorem T_embed_matcell_Entry_case : TyCase Tab.T_embed_matcell_Entry := asTy_case _ (caseAll (cs := [Tab.embed_matcell_Entry]) (by decide +kernel))
theorem embed_Matcell_case : ClsCase Tab.embed_Matcell := ⟨by decide +kernel, by decide +kernel, ⟨T_embed_matcell_Entry_case, trivial⟩⟩
theorem T_embed_EmbedOption_case : TyCase Tab.T_embed_EmbedOption := union_case _ (case_both (caseAll (cs := [Tab.embed_Background]) (by decide +kernel)) (case_cons embed_Matcell_case (caseAll (cs := [Tab.embed_Meshgeo, Tab.embed_Mgeoin, Tab.embed_Meeout, Tab.embed_Meein, Tab.embed_Calcvols, Tab.embed_Debug, Tab.embed_Filetype, Tab.embed_Gmvfile, Tab.embed_Length, Tab.embed_Mcnpumfile]) (by decide +kernel))))
theorem Embed_case : ClsCase Tab.Embed := ⟨by decide +kernel, by decide +kernel, ⟨trivial, T_embed_EmbedOption_case, trivial⟩⟩
theorem T_embee_EmbeeOption_case : TyCase Tab.T_embee_EmbeeOption := union_case _ (caseAll (cs := [Tab.embee_Embed, Tab.embee_Energy, Tab.embee_Time, Tab.embee_Atom, Tab.embee_Factor, Tab.embee_List, Tab.embee_Mat, Tab.embee_Mtype]) (by decide +kernel))
theorem Embee_case : ClsCase Tab.Embee := ⟨by decide +kernel, by decide +kernel, ⟨trivial, trivial, T_embee_EmbeeOption_case, trivial⟩⟩
theorem T_f_1_Sphere_case : TyCase Tab.T_f_1_Sphere := asTy_case _ (caseAll (cs := [Tab.f_1_Sphere]) (by decide +kernel))
theorem T_f_2_Ring_case : TyCase Tab.T_f_2_Ring := asTy_case _ (caseAll (cs := [Tab.f_2_Ring]) (by decide +kernel))
theorem T_files_File_case : TyCase Tab.T_files_File := asTy_case _ (caseAll (cs := [Tab.files_File]) (by decide +kernel))
theorem Files_case : ClsCase Tab.Files := ⟨by decide +kernel, by decide +kernel, ⟨T_files_File_case, trivial⟩⟩
theorem T_fmesh_FmeshOption_case : TyCase Tab.T_fmesh_FmeshOption := union_case _ (caseAll (cs := [Tab.fmesh_Geom, Tab.fmesh_Origin, Tab.fmesh_Axs, Tab.fmesh_Vec, Tab.fmesh_Imesh, Tab.fmesh_Iints, Tab.fmesh_Jmesh, Tab.fmesh_Jints, Tab.fmesh_Kmesh, Tab.fmesh_Kints, Tab.fmesh_Emesh, Tab.fmesh_Eints, Tab.fmesh_Enorm, Tab.fmesh_Tmesh, Tab.fmesh_Tints, Tab.fmesh_Tnorm, Tab.fmesh_Factor, Tab.fmesh_Out, Tab.fmesh_Tr, Tab.fmesh_Inc, Tab.fmesh_Type, Tab.fmesh_Kclear]) (by decide +kernel))
theorem Fmesh_case : ClsCase Tab.Fmesh := ⟨by decide +kernel, by decide +kernel, ⟨trivial, trivial, T_fmesh_FmeshOption_case, trivial⟩⟩
theorem T_fmult_FmultOption_case : TyCase Tab.T_fmult_FmultOption := union_case _ (caseAll (cs := [Tab.fmult_Sfnu, Tab.fmult_Width, Tab.fmult_Sfyield, Tab.fmult_Watt, Tab.fmult_Method, Tab.fmult_Data, Tab.fmult_Shift]) (by decide +kernel))
theorem Fmult_case : ClsCase Tab.Fmult := ⟨by decide +kernel, by decide +kernel, ⟨trivial, T_fmult_FmultOption_case, trivial⟩⟩
theorem T_kopts_KoptsOption_case : TyCase Tab.T_kopts_KoptsOption := union_case _ (caseAll (cs := [Tab.kopts_Blocksize, Tab.kopts_Kinetics, Tab.kopts_Precursor, Tab.kopts_Ksental, Tab.kopts_Fmat, Tab.kopts_Fmatskpt, Tab.kopts_Fmatncyc, Tab.kopts_Fmatspace, Tab.kopts_Fmataccel, Tab.kopts_Fmatreduce, Tab.kopts_Fmatnx, Tab.kopts_Fmatny, Tab.kopts_Fmatnz]) (by decide +kernel))
theorem Kopts_case : ClsCase Tab.Kopts := ⟨by decide +kernel, by decide +kernel, ⟨T_kopts_KoptsOption_case, trivial⟩⟩
theorem T_kpert_KpertOption_case : TyCase Tab.T_kpert_KpertOption := union_case _ (caseAll (cs := [Tab.kpert_Cell, Tab.kpert_Mat, Tab.kpert_Rho, Tab.kpert_Iso, Tab.kpert_Rxn, Tab.kpert_Erg, Tab.kpert_Linear]) (by decide +kernel))
theorem Kpert_case : ClsCase Tab.Kpert := ⟨by decide +kernel, by decide +kernel, ⟨trivial, T_kpert_KpertOption_case, trivial⟩⟩
theorem T_ksen_KsenOption_case : TyCase Tab.T_ksen_KsenOption := union_case _ (caseAll (cs := [Tab.ksen_Iso, Tab.ksen_Rxn, Tab.ksen_Mt, Tab.ksen_Erg, Tab.ksen_Ein, Tab.ksen_Legendre, Tab.ksen_Cos, Tab.ksen_Constrain]) (by decide +kernel))
theorem Ksen_case : ClsCase Tab.Ksen := ⟨by decide +kernel, by decide +kernel, ⟨trivial, trivial, T_ksen_KsenOption_case, trivial⟩⟩
theorem T_ksrc_Location_case : TyCase Tab.T_ksrc_Location := asTy_case _ (caseAll (cs := [Tab.ksrc_Location]) (by decide +kernel))
theorem Ksrc_case : ClsCase Tab.Ksrc := ⟨by decide +kernel, by decide +kernel, ⟨T_ksrc_Location_case, trivial⟩⟩
theorem T_m_0_MOption_0_case : TyCase Tab.T_m_0_MOption_0 := union_case _ (caseAll (cs := [Tab.m_0_Gas, Tab.m_0_Estep, Tab.m_0_Hstep, Tab.m_0_Nlib, Tab.m_0_Plib, Tab.m_0_Pnlib, Tab.m_0_Elib, Tab.m_0_Hlib, Tab.m_0_Alib, Tab.m_0_Slib, Tab.m_0_Tlib, Tab.m_0_Dlib, Tab.m_0_Cond, Tab.m_0_Refi, Tab.m_0_Refc, Tab.m_0_Refs]) (by decide +kernel))
theorem M_0_case : ClsCase Tab.M_0 := ⟨by decide +kernel, by decide +kernel, ⟨trivial, trivial, T_m_0_MOption_0_case, trivial⟩⟩
theorem T_mesh_MeshOption_case : TyCase Tab.T_mesh_MeshOption := union_case _ (caseAll (cs := [Tab.mesh_Geom, Tab.mesh_Ref, Tab.mesh_Origin, Tab.mesh_Axs, Tab.mesh_Vec, Tab.mesh_Imesh, Tab.mesh_Iints, Tab.mesh_Jmesh, Tab.mesh_Jints, Tab.mesh_Kmesh, Tab.mesh_Kints]) (by decide +kernel))
theorem Mesh_case : ClsCase Tab.Mesh := ⟨by decide +kernel, by decide +kernel, ⟨T_mesh_MeshOption_case, trivial⟩⟩
theorem T_mplot_free_FreeOption_case : TyCase Tab.T_mplot_free_FreeOption := union_case _ (caseAll (cs := [Tab.mplot_free_All, Tab.mplot_free_Noall]) (by decide +kernel))
theorem mplot_Free_case : ClsCase Tab.mplot_Free := ⟨by decide +kernel, by decide +kernel, ⟨trivial, trivial, T_mplot_free_FreeOption_case, trivial⟩⟩
theorem T_mplot_contour_ContourOption_case : TyCase Tab.T_mplot_contour_ContourOption := union_case _ (caseAll (cs := [Tab.mplot_contour_Pct, Tab.mplot_contour_Lin, Tab.mplot_contour_Log, Tab.mplot_contour_All, Tab.mplot_contour_Noall, Tab.mplot_contour_Line, Tab.mplot_contour_Noline, Tab.mplot_contour_Color, Tab.mplot_contour_Nocolor]) (by decide +kernel))
theorem mplot_Contour_case : ClsCase Tab.mplot_Contour := ⟨by decide +kernel, by decide +kernel, ⟨trivial, trivial, trivial, T_mplot_contour_ContourOption_case, trivial⟩⟩
theorem T_mplot_MplotOption_case : TyCase Tab.T_mplot_MplotOption := union_case _ (case_both (caseAll (cs := [Tab.mplot_Term, Tab.mplot_File, Tab.mplot_Coplot, Tab.mplot_Freq, Tab.mplot_Return, Tab.mplot_Plot, Tab.mplot_Pause, Tab.mplot_End, Tab.mplot_Options, Tab.mplot_Help, Tab.mplot_Status, Tab.mplot_Printal, Tab.mplot_Iptal, Tab.mplot_Printpts, Tab.mplot_Runtpe, Tab.mplot_Dump, Tab.mplot_Wmctal, Tab.mplot_Rmctal, Tab.mplot_Tally, Tab.mplot_Pert, Tab.mplot_Lethargy, Tab.mplot_Nonorm, Tab.mplot_Factor, Tab.mplot_Reset, Tab.mplot_Title, Tab.mplot_Below, Tab.mplot_Subtitle, Tab.mplot_Xtitle, Tab.mplot_Ytitle, Tab.mplot_Ztitle, Tab.mplot_Label]) (by decide +kernel)) (case_cons mplot_Free_case (case_both (caseAll (cs := [Tab.mplot_Fixed, Tab.mplot_Set, Tab.mplot_Tfc, Tab.mplot_Kcode, Tab.mplot_Xs_0, Tab.mplot_Xs_1, Tab.mplot_Xs_2, Tab.mplot_Mt, Tab.mplot_Par, Tab.mplot_Linlin, Tab.mplot_Linlog, Tab.mplot_Loglin, Tab.mplot_Loglog, Tab.mplot_Xlims, Tab.mplot_Ylims, Tab.mplot_Scales, Tab.mplot_Hist, Tab.mplot_Plinear, Tab.mplot_Spline, Tab.mplot_Bar, Tab.mplot_Noerrbar, Tab.mplot_Thick, Tab.mplot_Thin, Tab.mplot_Legend]) (by decide +kernel)) (case_cons mplot_Contour_case (caseAll (cs := [Tab.mplot_Wash, Tab.mplot_Fmesh, Tab.mplot_Fmrelerr, Tab.mplot_Zlev, Tab.mplot_Ebin, Tab.mplot_Tbin, Tab.mplot_Cop, Tab.mplot_Tal]) (by decide +kernel))))))
theorem Mplot_case : ClsCase Tab.Mplot := ⟨by decide +kernel, by decide +kernel, ⟨T_mplot_MplotOption_case, trivial⟩⟩
theorem T_pert_PertOption_case : TyCase Tab.T_pert_PertOption := union_case _ (caseAll (cs := [Tab.pert_Cell, Tab.pert_Mat, Tab.pert_Rho, Tab.pert_Method, Tab.pert_Erg, Tab.pert_Rxn]) (by decide +kernel))
theorem Pert_case : ClsCase Tab.Pert := ⟨by decide +kernel, by decide +kernel, ⟨trivial, trivial, T_pert_PertOption_case, trivial⟩⟩
theorem T_pikmt_Photonbias_case : TyCase Tab.T_pikmt_Photonbias := asTy_case _ (caseAll (cs := [Tab.pikmt_Photonbias]) (by decide +kernel))
theorem Pikmt_case : ClsCase Tab.Pikmt := ⟨by decide +kernel, by decide +kernel, ⟨T_pikmt_Photonbias_case, trivial⟩⟩
theorem T_ptrac_filter_Entry_case : TyCase Tab.T_ptrac_filter_Entry := asTy_case _ (caseAll (cs := [Tab.ptrac_filter_Entry]) (by decide +kernel))
theorem ptrac_Filter_case : ClsCase Tab.ptrac_Filter := ⟨by decide +kernel, by decide +kernel, ⟨T_ptrac_filter_Entry_case, trivial⟩⟩
theorem T_ptrac_PtracOption_case : TyCase Tab.T_ptrac_PtracOption := union_case _ (case_both (caseAll (cs := [Tab.ptrac_Buffer, Tab.ptrac_File, Tab.ptrac_Max, Tab.ptrac_Meph, Tab.ptrac_Write, Tab.ptrac_Conic, Tab.ptrac_Event]) (by decide +kernel)) (case_cons ptrac_Filter_case (caseAll (cs := [Tab.ptrac_Type, Tab.ptrac_Nps, Tab.ptrac_Cell, Tab.ptrac_Surface, Tab.ptrac_Tally, Tab.ptrac_Value]) (by decide +kernel))))
theorem Ptrac_case : ClsCase Tab.Ptrac := ⟨by decide +kernel, by decide +kernel, ⟨T_ptrac_PtracOption_case, trivial⟩⟩
theorem T_rand_RandOption_case : TyCase Tab.T_rand_RandOption := union_case _ (caseAll (cs := [Tab.rand_Gen, Tab.rand_Seed, Tab.rand_Stride, Tab.rand_Hist]) (by decide +kernel))
theorem Rand_case : ClsCase Tab.Rand := ⟨by decide +kernel, by decide +kernel, ⟨T_rand_RandOption_case, trivial⟩⟩
theorem T_sdef_f_FOption_case : TyCase Tab.T_sdef_f_FOption := union_case _ (caseAll (cs := [Tab.sdef_f_Fcel, Tab.sdef_f_Fsur, Tab.sdef_f_Ferg, Tab.sdef_f_Ftme, Tab.sdef_f_Fdir, Tab.sdef_f_Fvec, Tab.sdef_f_Fnrm, Tab.sdef_f_Fpos, Tab.sdef_f_Frad, Tab.sdef_f_Fext, Tab.sdef_f_Faxs, Tab.sdef_f_Fx, Tab.sdef_f_Fy, Tab.sdef_f_Fz, Tab.sdef_f_Fccc, Tab.sdef_f_Fara, Tab.sdef_f_Fwgt, Tab.sdef_f_Ftr, Tab.sdef_f_Feff, Tab.sdef_f_Fpar, Tab.sdef_f_Fdat, Tab.sdef_f_Floc, Tab.sdef_f_Fbem, Tab.sdef_f_Fbap]) (by decide +kernel))
theorem sdef_Ara_1_case : ClsCase Tab.sdef_Ara_1 := ⟨by decide +kernel, by decide +kernel, ⟨T_sdef_f_FOption_case, trivial⟩⟩
theorem sdef_Axs_1_case : ClsCase Tab.sdef_Axs_1 := ⟨by decide +kernel, by decide +kernel, ⟨T_sdef_f_FOption_case, trivial⟩⟩
theorem sdef_Bap_1_case : ClsCase Tab.sdef_Bap_1 := ⟨by decide +kernel, by decide +kernel, ⟨T_sdef_f_FOption_case, trivial⟩⟩
theorem sdef_Bem_1_case : ClsCase Tab.sdef_Bem_1 := ⟨by decide +kernel, by decide +kernel, ⟨T_sdef_f_FOption_case, trivial⟩⟩
theorem sdef_Ccc_1_case : ClsCase Tab.sdef_Ccc_1 := ⟨by decide +kernel, by decide +kernel, ⟨T_sdef_f_FOption_case, trivial⟩⟩
theorem sdef_Cel_2_case : ClsCase Tab.sdef_Cel_2 := ⟨by decide +kernel, by decide +kernel, ⟨T_sdef_f_FOption_case, trivial⟩⟩
theorem sdef_Dat_1_case : ClsCase Tab.sdef_Dat_1 := ⟨by decide +kernel, by decide +kernel, ⟨T_sdef_f_FOption_case, trivial⟩⟩
theorem sdef_Dir_2_case : ClsCase Tab.sdef_Dir_2 := ⟨by decide +kernel, by decide +kernel, ⟨T_sdef_f_FOption_case, trivial⟩⟩
theorem sdef_Eff_1_case : ClsCase Tab.sdef_Eff_1 := ⟨by decide +kernel, by decide +kernel, ⟨T_sdef_f_FOption_case, trivial⟩⟩
theorem sdef_Erg_2_case : ClsCase Tab.sdef_Erg_2 := ⟨by decide +kernel, by decide +kernel, ⟨T_sdef_f_FOption_case, trivial⟩⟩
theorem sdef_Ext_2_case : ClsCase Tab.sdef_Ext_2 := ⟨by decide +kernel, by decide +kernel, ⟨T_sdef_f_FOption_case, trivial⟩⟩
theorem sdef_Loc_1_case : ClsCase Tab.sdef_Loc_1 := ⟨by decide +kernel, by decide +kernel, ⟨T_sdef_f_FOption_case, trivial⟩⟩
theorem sdef_Nrm_1_case : ClsCase Tab.sdef_Nrm_1 := ⟨by decide +kernel, by decide +kernel, ⟨T_sdef_f_FOption_case, trivial⟩⟩
theorem sdef_Par_1_case : ClsCase Tab.sdef_Par_1 := ⟨by decide +kernel, by decide +kernel, ⟨T_sdef_f_FOption_case, trivial⟩⟩
theorem sdef_Pos_2_case : ClsCase Tab.sdef_Pos_2 := ⟨by decide +kernel, by decide +kernel, ⟨T_sdef_f_FOption_case, trivial⟩⟩
theorem sdef_Rad_2_case : ClsCase Tab.sdef_Rad_2 := ⟨by decide +kernel, by decide +kernel, ⟨T_sdef_f_FOption_case, trivial⟩⟩
theorem sdef_Sur_1_case : ClsCase Tab.sdef_Sur_1 := ⟨by decide +kernel, by decide +kernel, ⟨T_sdef_f_FOption_case, trivial⟩⟩
theorem sdef_Tme_1_case : ClsCase Tab.sdef_Tme_1 := ⟨by decide +kernel, by decide +kernel, ⟨embedded_case, trivial⟩⟩
theorem sdef_Tme_2_case : ClsCase Tab.sdef_Tme_2 := ⟨by decide +kernel, by decide +kernel, ⟨T_sdef_f_FOption_case, trivial⟩⟩
theorem sdef_Tr_2_case : ClsCase Tab.sdef_Tr_2 := ⟨by decide +kernel, by decide +kernel, ⟨T_sdef_f_FOption_case, trivial⟩⟩
theorem sdef_Vec_1_case : ClsCase Tab.sdef_Vec_1 := ⟨by decide +kernel, by decide +kernel, ⟨T_sdef_f_FOption_case, trivial⟩⟩
theorem sdef_Wgt_1_case : ClsCase Tab.sdef_Wgt_1 := ⟨by decide +kernel, by decide +kernel, ⟨T_sdef_f_FOption_case, trivial⟩⟩
theorem sdef_X_2_case : ClsCase Tab.sdef_X_2 := ⟨by decide +kernel, by decide +kernel, ⟨T_sdef_f_FOption_case, trivial⟩⟩
theorem sdef_Y_2_case : ClsCase Tab.sdef_Y_2 := ⟨by decide +kernel, by decide +kernel, ⟨T_sdef_f_FOption_case, trivial⟩⟩
theorem sdef_Z_2_case : ClsCase Tab.sdef_Z_2 := ⟨by decide +kernel, by decide +kernel, ⟨T_sdef_f_FOption_case, trivial⟩⟩
theorem T_sdef_SdefOption_case : TyCase Tab.T_sdef_SdefOption := union_case _ (case_both (caseAll (cs := [Tab.sdef_Ara_0]) (by decide +kernel)) (case_cons sdef_Ara_1_case (case_both (caseAll (cs := [Tab.sdef_Axs_0]) (by decide +kernel)) (case_cons sdef_Axs_1_case (case_both (caseAll (cs := [Tab.sdef_Bap_0]) (by decide +kernel)) (case_cons sdef_Bap_1_case (case_both (caseAll (cs := [Tab.sdef_Bem_0]) (by decide +kernel)) (case_cons sdef_Bem_1_case (case_both (caseAll (cs := [Tab.sdef_Ccc_0]) (by decide +kernel)) (case_cons sdef_Ccc_1_case (case_both (caseAll (cs := [Tab.sdef_Cel_0, Tab.sdef_Cel_1]) (by decide +kernel)) (case_cons sdef_Cel_2_case (case_both (caseAll (cs := [Tab.sdef_Dat_0]) (by decide +kernel)) (case_cons sdef_Dat_1_case (case_both (caseAll (cs := [Tab.sdef_Dir_1]) (by decide +kernel)) (case_cons sdef_Dir_2_case (case_both (caseAll (cs := [Tab.sdef_Dir_0, Tab.sdef_Eff_0]) (by decide +kernel)) (case_cons sdef_Eff_1_case (case_both (caseAll (cs := [Tab.sdef_Erg_0, Tab.sdef_Erg_1]) (by decide +kernel)) (case_cons sdef_Erg_2_case (case_both (caseAll (cs := [Tab.sdef_Ext_0, Tab.sdef_Ext_1]) (by decide +kernel)) (case_cons sdef_Ext_2_case (case_both (caseAll (cs := [Tab.sdef_Loc_0]) (by decide +kernel)) (case_cons sdef_Loc_1_case (case_both (caseAll (cs := [Tab.sdef_Nrm_0]) (by decide +kernel)) (case_cons sdef_Nrm_1_case (case_both (caseAll (cs := [Tab.sdef_Par_0]) (by decide +kernel)) (case_cons sdef_Par_1_case (case_both (caseAll (cs := [Tab.sdef_Pos_0, Tab.sdef_Pos_1]) (by decide +kernel)) (case_cons sdef_Pos_2_case (case_both (caseAll (cs := [Tab.sdef_Rad_0, Tab.sdef_Rad_1]) (by decide +kernel)) (case_cons sdef_Rad_2_case (case_both (caseAll (cs := [Tab.sdef_Sur_0]) (by decide +kernel)) (case_cons sdef_Sur_1_case (case_both (caseAll (cs := [Tab.sdef_Tme_0]) (by decide +kernel)) (case_cons sdef_Tme_1_case (case_cons sdef_Tme_2_case (case_both (caseAll (cs := [Tab.sdef_Tr_0, Tab.sdef_Tr_1]) (by decide +kernel)) (case_cons sdef_Tr_2_case (case_both (caseAll (cs := [Tab.sdef_Vec_0]) (by decide +kernel)) (case_cons sdef_Vec_1_case (case_both (caseAll (cs := [Tab.sdef_Wgt_0]) (by decide +kernel)) (case_cons sdef_Wgt_1_case (case_both (caseAll (cs := [Tab.sdef_X_0, Tab.sdef_X_1]) (by decide +kernel)) (case_cons sdef_X_2_case (case_both (caseAll (cs := [Tab.sdef_Y_0, Tab.sdef_Y_1]) (by decide +kernel)) (case_cons sdef_Y_2_case (case_both (caseAll (cs := [Tab.sdef_Z_0, Tab.sdef_Z_1]) (by decide +kernel)) (case_cons sdef_Z_2_case case_nil)))))))))))))))))))))))))))))))))))))))))))))))))
theorem Sdef_case : ClsCase Tab.Sdef := ⟨by decide +kernel, by decide +kernel, ⟨T_sdef_SdefOption_case, trivial⟩⟩
theorem T_ssr_SsrOption_case : TyCase Tab.T_ssr_SsrOption := union_case _ (caseAll (cs := [Tab.ssr_Old, Tab.ssr_Cel, Tab.ssr_New, Tab.ssr_Pty, Tab.ssr_Col, Tab.ssr_Wgt, Tab.ssr_Tr_0, Tab.ssr_Tr_1, Tab.ssr_Psc, Tab.ssr_Axs, Tab.ssr_Ext, Tab.ssr_Poa, Tab.ssr_Bcw]) (by decide +kernel))
theorem Ssr_case : ClsCase Tab.Ssr := ⟨by decide +kernel, by decide +kernel, ⟨T_ssr_SsrOption_case, trivial⟩⟩
theorem T_ssw_SswOption_case : TyCase Tab.T_ssw_SswOption := union_case _ (caseAll (cs := [Tab.ssw_Sym, Tab.ssw_Pty, Tab.ssw_Cel]) (by decide +kernel))
theorem Ssw_case : ClsCase Tab.Ssw := ⟨by decide +kernel, by decide +kernel, ⟨trivial, trivial, T_ssw_SswOption_case, trivial⟩⟩
theorem T_stop_StopOption_case : TyCase Tab.T_stop_StopOption := union_case _ (caseAll (cs := [Tab.stop_Nps, Tab.stop_Ctme, Tab.stop_F]) (by decide +kernel))
theorem Stop_case : ClsCase Tab.Stop := ⟨by decide +kernel, by decide +kernel, ⟨T_stop_StopOption_case, trivial⟩⟩
theorem T_t_1_TOption_1_case : TyCase Tab.T_t_1_TOption_1 := union_case _ (caseAll (cs := [Tab.t_1_Cbeg, Tab.t_1_Cfrq, Tab.t_1_Cofi, Tab.t_1_Coni, Tab.t_1_Csub, Tab.t_1_Cend]) (by decide +kernel))
theorem T_1_case : ClsCase Tab.T_1 := ⟨by decide +kernel, by decide +kernel, ⟨trivial, T_t_1_TOption_1_case, trivial⟩⟩
theorem T_tropt_TroptOption_case : TyCase Tab.T_tropt_TroptOption := union_case _ (caseAll (cs := [Tab.tropt_Mcscat, Tab.tropt_Eloss, Tab.tropt_Nreact, Tab.tropt_Nescat, Tab.tropt_Genxs]) (by decide +kernel))
theorem Tropt_case : ClsCase Tab.Tropt := ⟨by decide +kernel, by decide +kernel, ⟨T_tropt_TroptOption_case, trivial⟩⟩
theorem T_uran_Stochastic_case : TyCase Tab.T_uran_Stochastic := asTy_case _ (caseAll (cs := [Tab.uran_Stochastic]) (by decide +kernel))
theorem Uran_case : ClsCase Tab.Uran := ⟨by decide +kernel, by decide +kernel, ⟨T_uran_Stochastic_case, trivial⟩⟩
theorem T_var_VarOption_case : TyCase Tab.T_var_VarOption := union_case _ (caseAll (cs := [Tab.var_Rr]) (by decide +kernel))
theorem Var_case : ClsCase Tab.Var := ⟨by decide +kernel, by decide +kernel, ⟨T_var_VarOption_case, trivial⟩⟩
theorem T_cell_CellOption_case : TyCase Tab.T_cell_CellOption := union_case _ (caseAll (cs := [Tab.cell_Imp, Tab.cell_Vol, Tab.cell_Pwt, Tab.cell_Ext, Tab.cell_Fcl, Tab.cell_Wwn, Tab.cell_Dxc, Tab.cell_Nonu, Tab.cell_Pd, Tab.cell_U, Tab.cell_Trcl_1, Tab.cell_Trcl_2, Tab.cell_Trcl_3, Tab.cell_Trcl_4, Tab.cell_Trcl_5, Tab.cell_Trcl_0, Tab.cell_Lat, Tab.cell_Fill_0, Tab.cell_Fill_1, Tab.cell_Fill_2, Tab.cell_Fill_3, Tab.cell_Fill_4, Tab.cell_Fill_5, Tab.cell_Fill_6, Tab.cell_Elpt, Tab.cell_Tmp, Tab.cell_Cosy, Tab.cell_Bflcl, Tab.cell_Unc]) (by decide +kernel))
theorem Cell_case : ClsCase Tab.Cell := ⟨by decide +kernel, by decide +kernel, ⟨trivial, trivial, trivial, trivial, T_cell_CellOption_case, trivial⟩⟩
theorem T_surface_SurfaceOption_case : TyCase Tab.T_surface_SurfaceOption := union_case _ (caseAll (cs := [Tab.surface_P_0, Tab.surface_P_1, Tab.surface_Px, Tab.surface_Py, Tab.surface_Pz, Tab.surface_So, Tab.surface_S, Tab.surface_Sx, Tab.surface_Sy, Tab.surface_Sz, Tab.surface_C_x, Tab.surface_C_y, Tab.surface_C_z, Tab.surface_Cx, Tab.surface_Cy, Tab.surface_Cz, Tab.surface_K_x, Tab.surface_K_y, Tab.surface_K_z, Tab.surface_Kx, Tab.surface_Ky, Tab.surface_Kz, Tab.surface_Sq, Tab.surface_Gq, Tab.surface_Tx, Tab.surface_Ty, Tab.surface_Tz, Tab.surface_X, Tab.surface_Y, Tab.surface_Z, Tab.surface_Box, Tab.surface_Rpp, Tab.surface_Sph, Tab.surface_Rcc, Tab.surface_Rhp, Tab.surface_Rec, Tab.surface_Trc, Tab.surface_Ell, Tab.surface_Wed, Tab.surface_Arb]) (by decide +kernel))
theorem T_like_LikeOption_case : TyCase Tab.T_like_LikeOption := union_case _ (caseAll (cs := [Tab.like_Imp, Tab.like_Vol, Tab.like_Pwt, Tab.like_Ext, Tab.like_Fcl, Tab.like_Wwn, Tab.like_Dxc, Tab.like_Nonu, Tab.like_Pd, Tab.like_U, Tab.like_Trcl_1, Tab.like_Trcl_2, Tab.like_Trcl_3, Tab.like_Trcl_4, Tab.like_Trcl_5, Tab.like_Trcl_0, Tab.like_Lat, Tab.like_Mat, Tab.like_Fill_0, Tab.like_Fill_1, Tab.like_Fill_2, Tab.like_Fill_3, Tab.like_Fill_4, Tab.like_Fill_5, Tab.like_Fill_6, Tab.like_Elpt, Tab.like_Rho, Tab.like_Tmp, Tab.like_Cosy, Tab.like_Bflcl, Tab.like_Unc]) (by decide +kernel))
theorem Like_case : ClsCase Tab.Like := ⟨by decide +kernel, by decide +kernel, ⟨trivial, trivial, T_like_LikeOption_case, trivial⟩⟩

theorem Surface_case : ClsCase Tab.Surface := ⟨by decide +kernel, by decide +kernel, ⟨trivial, trivial, trivial, T_surface_SurfaceOption_case, trivial⟩⟩

theorem listed_case : ∀ c ∈ caseCards, ClsCase c := (case_both (caseAll (cs := [Tab.Area, Tab.Awtab, Tab.Bbrem, Tab.Bflcl]) (by decide +kernel)) (case_cons Bfld_case (case_both (caseAll (cs := [Tab.C, Tab.Cf, Tab.Cm, Tab.Cosy, Tab.Cut]) (by decide +kernel)) (case_cons Dd_case (case_both (caseAll (cs := [Tab.De, Tab.Df_0, Tab.Dm, Tab.Drxs, Tab.Ds_0]) (by decide +kernel)) (case_cons Ds_1_case (case_cons Ds_2_case (case_both (caseAll (cs := [Tab.Ds_3, Tab.Dxc]) (by decide +kernel)) (case_cons Dxt_case (case_both (caseAll (cs := [Tab.E, Tab.Elpt, Tab.Em, Tab.Embdb, Tab.Embdf, Tab.Embeb, Tab.Embem, Tab.Embtb, Tab.Embtm, Tab.Esplt, Tab.Ext, Tab.F_0, Tab.F_3, Tab.Fc, Tab.Fcl, Tab.Fill, Tab.Fm, Tab.Fq, Tab.Fs, Tab.Ft, Tab.Fu, Tab.Histp, Tab.Idum, Tab.Imp]) (by decide +kernel)) (case_cons Kpert_case (case_cons Ksen_case (case_cons Ksrc_case (case_both (caseAll (cs := [Tab.Lat, Tab.Lca, Tab.Lcb, Tab.M_1]) (by decide +kernel)) (case_cons Mesh_case (case_both (caseAll (cs := [Tab.Mode, Tab.Mphys, Tab.Mt, Tab.Mx, Tab.Nonu, Tab.Notrn, Tab.Otfdb, Tab.Pd]) (by decide +kernel)) (case_cons Pikmt_case (case_both (caseAll (cs := [Tab.Prdmp, Tab.Print, Tab.Pwt, Tab.Rdum, Tab.Sb_0, Tab.Sc, Tab.Sd, Tab.Sf, Tab.Si_0, Tab.Si_1, Tab.Si_2, Tab.Sp_0, Tab.Spdtl]) (by decide +kernel)) (case_cons Stop_case (case_both (caseAll (cs := [Tab.T_0]) (by decide +kernel)) (case_cons T_1_case (case_both (caseAll (cs := [Tab.Talnp, Tab.Tf_0, Tab.Tf_1, Tab.Thtme, Tab.Tm, Tab.Tmp, Tab.Tr_0, Tab.Tr_1, Tab.Tr_2, Tab.Tr_3, Tab.Tr_4]) (by decide +kernel)) (case_cons Tropt_case (case_both (caseAll (cs := [Tab.Tsplt, Tab.U, Tab.Unc]) (by decide +kernel)) (case_cons Var_case (case_both (caseAll (cs := [Tab.Void, Tab.Vol, Tab.Wwe, Tab.Wwge, Tab.Wwgt, Tab.Wwn, Tab.Wwt, Tab.Xs, Tab.Za, Tab.Zb, Tab.Zc, Tab.Zd, Tab.Comment]) (by decide +kernel)) (case_cons Act_case (case_both (caseAll (cs := [Tab.Cosyp, Tab.Ctme]) (by decide +kernel)) (case_cons Dawwg_case (case_both (caseAll (cs := [Tab.Dbcn]) (by decide +kernel)) (case_cons Df_1_case (case_cons Embed_case (case_cons Embee_case (case_both (caseAll (cs := [Tab.Fic, Tab.Fip, Tab.Fir]) (by decide +kernel)) (case_cons Fmesh_case (case_cons Fmult_case (case_both (caseAll (cs := [Tab.Hsrc, Tab.Kcode]) (by decide +kernel)) (case_cons Kopts_case (case_both (caseAll (cs := [Tab.Lcc, Tab.Lea, Tab.Leb, Tab.Lost]) (by decide +kernel)) (case_cons M_0_case (case_both (caseAll (cs := [Tab.Mgopt]) (by decide +kernel)) (case_cons Mplot_case (case_both (caseAll (cs := [Tab.Nps]) (by decide +kernel)) (case_cons Pert_case (case_both (caseAll (cs := [Tab.Phys_0, Tab.Phys_1, Tab.Phys_3, Tab.Phys_4]) (by decide +kernel)) (case_cons Ptrac_case (case_cons Rand_case (case_both (caseAll (cs := [Tab.Sb_1]) (by decide +kernel)) (case_cons Sdef_case (case_both (caseAll (cs := [Tab.Sp_1]) (by decide +kernel)) (case_cons Ssr_case (case_cons Ssw_case (case_cons Uran_case (case_both (caseAll (cs := [Tab.Wwg, Tab.Wwp, Tab.F_4]) (by decide +kernel)) (case_cons Files_case (case_both (caseAll (cs := [Tab.Phys_2]) (by decide +kernel)) (case_cons Cell_case (case_cons Surface_case (case_cons Like_case case_nil)))))))))))))))))))))))))))))))))))))))))))))))))))))))))))

end Inp
