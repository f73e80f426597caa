import Verif.Numpunct.Model
/-!
# The predefined numpunct facets

include/strf/detail/facets/numpunct.hpp 665–970. Written by tools/gen_numpunct.py, and compared with the source by tools/check_tables.py.
-/
namespace Strf.Punct
open Strf.Numpunct (Facet)

/-- `constexpr auto numpunct_NAME = strf::numpunct<10>{GROUPS}.thousands_sep(SEP).decimal_point(POINT)`; `sep = none`: without `.thousands_sep(…)` -/
structure Named where
  name : String
  groups : List Int
  point : Nat
  sep : Option Nat
deriving DecidableEq

/-- numpunct.hpp 432–438, 485–508: the constructors and the setters -/
def Named.facet (n : Named) : Facet :=
  let f := if n.groups = [] then Facet.default else Facet.ofGroups n.groups
  let f := match n.sep with
    | some s => f.setSep s
    | none => f
  f.setPoint n.point

/-- numpunct.hpp 665–970: all of them -/
def predefined : List Named := [
  ⟨"aa_DJ", [], 0x2E, none⟩,
  ⟨"aa_ER", [], 0x2E, none⟩,
  ⟨"aa_ET", [3], 0x2E, some 0x2C⟩,
  ⟨"af_ZA", [3], 0x2E, some 0x2C⟩,
  ⟨"agr_PE", [3], 0x2C, some 0x2E⟩,
  ⟨"ak_GH", [3], 0x2E, some 0x2C⟩,
  ⟨"am_ET", [3], 0x2E, some 0x2C⟩,
  ⟨"an_ES", [3], 0x2C, some 0x2E⟩,
  ⟨"anp_IN", [3], 0x2E, some 0x2C⟩,
  ⟨"ar_AE", [3], 0x2E, some 0x2C⟩,
  ⟨"ar_BH", [3], 0x2E, some 0x2C⟩,
  ⟨"ar_DZ", [3], 0x2E, some 0x2C⟩,
  ⟨"ar_EG", [3], 0x2E, some 0x2C⟩,
  ⟨"ar_IN", [3], 0x2E, some 0x2C⟩,
  ⟨"ar_IQ", [3], 0x2E, some 0x2C⟩,
  ⟨"ar_JO", [3], 0x2E, some 0x2C⟩,
  ⟨"ar_KW", [3], 0x2E, some 0x2C⟩,
  ⟨"ar_LB", [3], 0x2E, some 0x2C⟩,
  ⟨"ar_LY", [3], 0x2E, some 0x2C⟩,
  ⟨"ar_MA", [3], 0x2E, some 0x2C⟩,
  ⟨"ar_OM", [3], 0x2E, some 0x2C⟩,
  ⟨"ar_QA", [3], 0x2E, some 0x2C⟩,
  ⟨"ar_SA", [], 0x2E, none⟩,
  ⟨"ar_SD", [3], 0x2E, some 0x2C⟩,
  ⟨"ar_SS", [3], 0x2E, some 0x2C⟩,
  ⟨"ar_SY", [3], 0x2E, some 0x2C⟩,
  ⟨"ar_TN", [3], 0x2E, some 0x2C⟩,
  ⟨"ar_YE", [3], 0x2E, some 0x2C⟩,
  ⟨"as_IN", [3, 2], 0x2E, some 0x2C⟩,
  ⟨"ast_ES", [3], 0x2C, some 0x2E⟩,
  ⟨"ayc_PE", [3], 0x2C, some 0x2E⟩,
  ⟨"az_AZ", [3], 0x2C, some 0x2E⟩,
  ⟨"az_IR", [3], 0x2E, some 0x2C⟩,
  ⟨"be_BY", [3], 0x2C, some 0x2E⟩,
  ⟨"bem_ZM", [3], 0x2E, some 0x2C⟩,
  ⟨"ber_DZ", [3], 0x2E, some 0x2C⟩,
  ⟨"ber_MA", [3], 0x2E, some 0x2C⟩,
  ⟨"bg_BG", [3], 0x2C, some 0x202F⟩,
  ⟨"bhb_IN", [3], 0x2E, some 0x2C⟩,
  ⟨"bho_IN", [3], 0x2E, some 0x2C⟩,
  ⟨"bho_NP", [3], 0x2E, some 0x2C⟩,
  ⟨"bi_VU", [3], 0x2E, some 0x2C⟩,
  ⟨"bn_BD", [3, 2], 0x2E, some 0x2C⟩,
  ⟨"bn_IN", [3, 2], 0x2E, some 0x2C⟩,
  ⟨"bo_CN", [3], 0x2E, some 0x2C⟩,
  ⟨"bo_IN", [3], 0x2E, some 0x2C⟩,
  ⟨"br_FR", [3], 0x2C, some 0x202F⟩,
  ⟨"brx_IN", [3], 0x2E, some 0x2C⟩,
  ⟨"bs_BA", [], 0x2C, none⟩,
  ⟨"byn_ER", [], 0x2E, none⟩,
  ⟨"C", [], 0x2E, none⟩,
  ⟨"ca_AD", [], 0x2C, none⟩,
  ⟨"ca_ES", [], 0x2C, none⟩,
  ⟨"ca_FR", [], 0x2C, none⟩,
  ⟨"ca_IT", [], 0x2C, none⟩,
  ⟨"ce_RU", [3], 0x2C, some 0x202F⟩,
  ⟨"chr_US", [3], 0x2E, some 0x2C⟩,
  ⟨"ckb_IQ", [3], 0x2E, some 0x2C⟩,
  ⟨"cmn_TW", [4], 0x2E, some 0x2C⟩,
  ⟨"crh_UA", [3], 0x2C, some 0x2E⟩,
  ⟨"csb_PL", [3], 0x2C, some 0x202F⟩,
  ⟨"cs_CZ", [3], 0x2C, some 0x202F⟩,
  ⟨"cv_RU", [3], 0x2C, some 0x202F⟩,
  ⟨"cy_GB", [3], 0x2E, some 0x2C⟩,
  ⟨"da_DK", [3], 0x2C, some 0x2E⟩,
  ⟨"de_AT", [3], 0x2C, some 0x2E⟩,
  ⟨"de_BE", [3], 0x2C, some 0x2E⟩,
  ⟨"de_CH", [3], 0x2E, some 0x27⟩,
  ⟨"de_DE", [3], 0x2C, some 0x2E⟩,
  ⟨"de_IT", [3], 0x2C, some 0x2E⟩,
  ⟨"de_LI", [3], 0x2E, some 0x27⟩,
  ⟨"de_LU", [3], 0x2C, some 0x2E⟩,
  ⟨"doi_IN", [3], 0x2E, some 0x2C⟩,
  ⟨"dv_MV", [3], 0x2E, some 0x2C⟩,
  ⟨"dz_BT", [3, 2], 0x2E, some 0x2C⟩,
  ⟨"el_CY", [], 0x2C, none⟩,
  ⟨"el_GR", [], 0x2C, none⟩,
  ⟨"en_AG", [3], 0x2E, some 0x2C⟩,
  ⟨"en_AU", [3], 0x2E, some 0x2C⟩,
  ⟨"en_BW", [3], 0x2E, some 0x2C⟩,
  ⟨"en_CA", [3], 0x2E, some 0x2C⟩,
  ⟨"en_DK", [3], 0x2C, some 0x2E⟩,
  ⟨"en_GB", [3], 0x2E, some 0x2C⟩,
  ⟨"en_HK", [3], 0x2E, some 0x2C⟩,
  ⟨"en_IE", [3], 0x2E, some 0x2C⟩,
  ⟨"en_IL", [3], 0x2E, some 0x2C⟩,
  ⟨"en_IN", [3, 2], 0x2E, some 0x2C⟩,
  ⟨"en_NG", [3], 0x2E, some 0x2C⟩,
  ⟨"en_NZ", [3], 0x2E, some 0x2C⟩,
  ⟨"en_PH", [3], 0x2E, some 0x2C⟩,
  ⟨"en_SC", [3], 0x2E, some 0x2C⟩,
  ⟨"en_SG", [3], 0x2E, some 0x2C⟩,
  ⟨"en_US", [3], 0x2E, some 0x2C⟩,
  ⟨"en_ZA", [3], 0x2E, some 0x2C⟩,
  ⟨"en_ZM", [3], 0x2E, some 0x2C⟩,
  ⟨"en_ZW", [3], 0x2E, some 0x2C⟩,
  ⟨"eo", [], 0x2C, none⟩,
  ⟨"eo_US", [3], 0x2E, some 0x2C⟩,
  ⟨"es_AR", [3], 0x2C, some 0x2E⟩,
  ⟨"es_BO", [3], 0x2C, some 0x2E⟩,
  ⟨"es_CL", [3], 0x2C, some 0x2E⟩,
  ⟨"es_CO", [3], 0x2C, some 0x2E⟩,
  ⟨"es_CR", [3], 0x2C, some 0x202F⟩,
  ⟨"es_CU", [], 0x2C, none⟩,
  ⟨"es_DO", [3], 0x2E, some 0x2C⟩,
  ⟨"es_EC", [3], 0x2C, some 0x2E⟩,
  ⟨"es_ES", [3], 0x2C, some 0x2E⟩,
  ⟨"es_GT", [3], 0x2E, some 0x2C⟩,
  ⟨"es_HN", [3], 0x2E, some 0x2C⟩,
  ⟨"es_MX", [3], 0x2E, some 0x202F⟩,
  ⟨"es_NI", [3], 0x2E, some 0x2C⟩,
  ⟨"es_PA", [3], 0x2E, some 0x2C⟩,
  ⟨"es_PE", [3], 0x2C, some 0x2E⟩,
  ⟨"es_PR", [3], 0x2E, some 0x2C⟩,
  ⟨"es_PY", [3], 0x2C, some 0x2E⟩,
  ⟨"es_SV", [3], 0x2E, some 0x2C⟩,
  ⟨"es_US", [3], 0x2E, some 0x2C⟩,
  ⟨"es_UY", [3], 0x2C, some 0x2E⟩,
  ⟨"es_VE", [3], 0x2C, some 0x2E⟩,
  ⟨"et_EE", [3], 0x2C, some 0x202F⟩,
  ⟨"eu_ES", [3], 0x2C, some 0x2E⟩,
  ⟨"eu_FR", [3], 0x2C, some 0x202F⟩,
  ⟨"fa_IR", [3], 0x2E, some 0x2C⟩,
  ⟨"ff_SN", [3], 0x2C, some 0x2E⟩,
  ⟨"fi_FI", [3], 0x2C, some 0x202F⟩,
  ⟨"fil_PH", [3], 0x2E, some 0x2C⟩,
  ⟨"fo_FO", [3], 0x2C, some 0x2E⟩,
  ⟨"fr_BE", [3], 0x2C, some 0x2E⟩,
  ⟨"fr_CA", [3], 0x2C, some 0x202F⟩,
  ⟨"fr_CH", [3], 0x2E, some 0x27⟩,
  ⟨"fr_FR", [3], 0x2C, some 0x202F⟩,
  ⟨"fr_LU", [3], 0x2C, some 0x202F⟩,
  ⟨"fur_IT", [3], 0x2C, some 0x2E⟩,
  ⟨"fy_DE", [3], 0x2C, some 0x2E⟩,
  ⟨"fy_NL", [], 0x2C, none⟩,
  ⟨"ga_IE", [3], 0x2E, some 0x2C⟩,
  ⟨"gd_GB", [3], 0x2E, some 0x2C⟩,
  ⟨"gez_ER", [], 0x2E, none⟩,
  ⟨"gez_ET", [3], 0x2E, some 0x2C⟩,
  ⟨"gl_ES", [], 0x2C, none⟩,
  ⟨"gu_IN", [3], 0x2E, some 0x2C⟩,
  ⟨"gv_GB", [3], 0x2E, some 0x2C⟩,
  ⟨"hak_TW", [4], 0x2E, some 0x2C⟩,
  ⟨"ha_NG", [3], 0x2E, some 0x2C⟩,
  ⟨"he_IL", [3], 0x2E, some 0x2C⟩,
  ⟨"hif_FJ", [3], 0x2E, some 0x2C⟩,
  ⟨"hi_IN", [3], 0x2E, some 0x2C⟩,
  ⟨"hne_IN", [3], 0x2E, some 0x2C⟩,
  ⟨"hr_HR", [3], 0x2C, some 0x202F⟩,
  ⟨"hsb_DE", [3], 0x2C, some 0x2E⟩,
  ⟨"ht_HT", [3], 0x2C, some 0x202F⟩,
  ⟨"hu_HU", [3], 0x2C, some 0x2E⟩,
  ⟨"hy_AM", [3], 0x2E, some 0x2C⟩,
  ⟨"ia_FR", [3], 0x2C, some 0x202F⟩,
  ⟨"id_ID", [3], 0x2C, some 0x2E⟩,
  ⟨"ig_NG", [3], 0x2E, some 0x2C⟩,
  ⟨"ik_CA", [3], 0x2E, some 0x2C⟩,
  ⟨"is_IS", [3], 0x2C, some 0x2E⟩,
  ⟨"it_CH", [3], 0x2E, some 0x27⟩,
  ⟨"it_IT", [3], 0x2C, some 0x2E⟩,
  ⟨"iu_CA", [3], 0x2E, some 0x2C⟩,
  ⟨"ja_JP", [3], 0x2E, some 0x2C⟩,
  ⟨"kab_DZ", [3], 0x2C, some 0x202F⟩,
  ⟨"ka_GE", [3], 0x2C, some 0x2E⟩,
  ⟨"kk_KZ", [3], 0x2C, some 0x202F⟩,
  ⟨"kl_GL", [3], 0x2C, some 0x2E⟩,
  ⟨"km_KH", [3], 0x2E, some 0x2C⟩,
  ⟨"kn_IN", [3], 0x2E, some 0x2C⟩,
  ⟨"kok_IN", [3], 0x2E, some 0x2C⟩,
  ⟨"ko_KR", [3], 0x2E, some 0x2C⟩,
  ⟨"ks_IN", [3], 0x2E, some 0x2C⟩,
  ⟨"ku_TR", [3], 0x2C, some 0x2E⟩,
  ⟨"kw_GB", [3], 0x2E, some 0x2C⟩,
  ⟨"ky_KG", [3], 0x2C, some 0x202F⟩,
  ⟨"lb_LU", [3], 0x2C, some 0x2E⟩,
  ⟨"lg_UG", [3], 0x2E, some 0x2C⟩,
  ⟨"li_BE", [3], 0x2C, some 0x2E⟩,
  ⟨"lij_IT", [3], 0x2C, some 0x2E⟩,
  ⟨"li_NL", [], 0x2C, none⟩,
  ⟨"ln_CD", [3], 0x2C, some 0x2E⟩,
  ⟨"lo_LA", [3], 0x2E, some 0x2C⟩,
  ⟨"lt_LT", [3], 0x2C, some 0x2E⟩,
  ⟨"lv_LV", [3], 0x2C, some 0x202F⟩,
  ⟨"lzh_TW", [4], 0x2E, some 0x2C⟩,
  ⟨"mag_IN", [3], 0x2E, some 0x2C⟩,
  ⟨"mai_IN", [3], 0x2E, some 0x2C⟩,
  ⟨"mai_NP", [3], 0x2E, some 0x2C⟩,
  ⟨"mfe_MU", [3], 0x2E, some 0x202F⟩,
  ⟨"mg_MG", [], 0x2C, none⟩,
  ⟨"mhr_RU", [3], 0x2C, some 0x202F⟩,
  ⟨"mi_NZ", [3], 0x2E, some 0x2C⟩,
  ⟨"miq_NI", [3], 0x2E, some 0x2C⟩,
  ⟨"mjw_IN", [3, 2], 0x2E, some 0x2C⟩,
  ⟨"mk_MK", [3], 0x2C, some 0x202F⟩,
  ⟨"ml_IN", [3, 2], 0x2E, some 0x2C⟩,
  ⟨"mni_IN", [3, 2], 0x2E, some 0x2C⟩,
  ⟨"mn_MN", [3], 0x2C, some 0x2E⟩,
  ⟨"mr_IN", [3], 0x2E, some 0x2C⟩,
  ⟨"ms_MY", [3], 0x2E, some 0x2C⟩,
  ⟨"mt_MT", [3], 0x2E, some 0x2C⟩,
  ⟨"my_MM", [3], 0x2E, some 0x2C⟩,
  ⟨"nan_TW", [4], 0x2E, some 0x2C⟩,
  ⟨"nb_NO", [3], 0x2C, some 0x202F⟩,
  ⟨"nds_DE", [3], 0x2C, some 0x2E⟩,
  ⟨"nds_NL", [], 0x2C, none⟩,
  ⟨"ne_NP", [3], 0x2E, some 0x2C⟩,
  ⟨"nhn_MX", [3], 0x2E, some 0x202F⟩,
  ⟨"niu_NU", [3], 0x2E, some 0x2C⟩,
  ⟨"niu_NZ", [3], 0x2E, some 0x2C⟩,
  ⟨"nl_AW", [], 0x2C, none⟩,
  ⟨"nl_BE", [3], 0x2C, some 0x2E⟩,
  ⟨"nl_NL", [], 0x2C, none⟩,
  ⟨"nn_NO", [3], 0x2C, some 0x202F⟩,
  ⟨"nr_ZA", [3], 0x2E, some 0x2C⟩,
  ⟨"nso_ZA", [3], 0x2E, some 0x2C⟩,
  ⟨"oc_FR", [3], 0x2C, some 0x202F⟩,
  ⟨"om_ET", [3], 0x2E, some 0x2C⟩,
  ⟨"om_KE", [3], 0x2E, some 0x2C⟩,
  ⟨"or_IN", [3, 2], 0x2E, some 0x2C⟩,
  ⟨"os_RU", [3], 0x2C, some 0x202F⟩,
  ⟨"pa_IN", [3], 0x2E, some 0x2C⟩,
  ⟨"pap_AW", [], 0x2C, none⟩,
  ⟨"pap_CW", [], 0x2C, none⟩,
  ⟨"pa_PK", [3], 0x2E, some 0x2C⟩,
  ⟨"pl_PL", [3], 0x2C, some 0x202F⟩,
  ⟨"POSIX", [], 0x2E, none⟩,
  ⟨"ps_AF", [3], 0x66B, some 0x66C⟩,
  ⟨"pt_BR", [3], 0x2C, some 0x2E⟩,
  ⟨"pt_PT", [], 0x2C, none⟩,
  ⟨"quz_PE", [3], 0x2C, some 0x2E⟩,
  ⟨"raj_IN", [3], 0x2E, some 0x2C⟩,
  ⟨"ro_RO", [3], 0x2C, some 0x2E⟩,
  ⟨"ru_RU", [3], 0x2C, some 0x202F⟩,
  ⟨"ru_UA", [3], 0x2C, some 0x2E⟩,
  ⟨"rw_RW", [], 0x2C, none⟩,
  ⟨"sa_IN", [3], 0x2E, some 0x2C⟩,
  ⟨"sat_IN", [3], 0x2E, some 0x2C⟩,
  ⟨"sc_IT", [3], 0x2C, some 0x2E⟩,
  ⟨"sd_IN", [3], 0x2E, some 0x2C⟩,
  ⟨"sd_PK", [3, 2], 0x2E, some 0x2C⟩,
  ⟨"se_NO", [3], 0x2C, some 0x2E⟩,
  ⟨"sgs_LT", [3], 0x2C, some 0x2E⟩,
  ⟨"shn_MM", [3], 0x2E, some 0x2C⟩,
  ⟨"shs_CA", [3], 0x2E, some 0x2C⟩,
  ⟨"sid_ET", [3], 0x2E, some 0x2C⟩,
  ⟨"si_LK", [3], 0x2E, some 0x2C⟩,
  ⟨"sk_SK", [3], 0x2C, some 0x202F⟩,
  ⟨"sl_SI", [], 0x2C, none⟩,
  ⟨"sm_WS", [3], 0x2E, some 0x2C⟩,
  ⟨"so_DJ", [], 0x2E, none⟩,
  ⟨"so_ET", [3], 0x2E, some 0x2C⟩,
  ⟨"so_KE", [3], 0x2E, some 0x2C⟩,
  ⟨"so_SO", [3], 0x2E, some 0x2C⟩,
  ⟨"sq_AL", [3], 0x2C, some 0x2E⟩,
  ⟨"sq_MK", [3], 0x2C, some 0x2E⟩,
  ⟨"sr_ME", [], 0x2C, none⟩,
  ⟨"sr_RS", [], 0x2C, none⟩,
  ⟨"ss_ZA", [3], 0x2E, some 0x2C⟩,
  ⟨"st_ZA", [3], 0x2E, some 0x2C⟩,
  ⟨"sv_FI", [3], 0x2C, some 0x202F⟩,
  ⟨"sv_SE", [3], 0x2C, some 0x202F⟩,
  ⟨"sw_KE", [3], 0x2E, some 0x2C⟩,
  ⟨"sw_TZ", [3], 0x2E, some 0x2C⟩,
  ⟨"szl_PL", [3], 0x2C, some 0x202F⟩,
  ⟨"ta_IN", [3, 2], 0x2E, some 0x2C⟩,
  ⟨"ta_LK", [3, 2], 0x2E, some 0x2C⟩,
  ⟨"tcy_IN", [3], 0x2E, some 0x2C⟩,
  ⟨"te_IN", [3, 2], 0x2E, some 0x2C⟩,
  ⟨"tg_TJ", [3], 0x2C, some 0x2E⟩,
  ⟨"the_NP", [3], 0x2E, some 0x2C⟩,
  ⟨"th_TH", [3], 0x2E, some 0x2C⟩,
  ⟨"ti_ER", [], 0x2E, none⟩,
  ⟨"ti_ET", [3], 0x2E, some 0x2C⟩,
  ⟨"tig_ER", [], 0x2E, none⟩,
  ⟨"tk_TM", [3], 0x2E, some 0x2C⟩,
  ⟨"tl_PH", [3], 0x2E, some 0x2C⟩,
  ⟨"tn_ZA", [3], 0x2E, some 0x2C⟩,
  ⟨"to_TO", [3], 0x2E, some 0x2C⟩,
  ⟨"tpi_PG", [3], 0x2E, some 0x2C⟩,
  ⟨"tr_CY", [3], 0x2C, some 0x2E⟩,
  ⟨"tr_TR", [3], 0x2C, some 0x2E⟩,
  ⟨"ts_ZA", [3], 0x2E, some 0x2C⟩,
  ⟨"tt_RU", [3], 0x2C, some 0x202F⟩,
  ⟨"tt_RU_iqtelif", [3], 0x2C, some 0x2E⟩,
  ⟨"ug_CN", [3], 0x2E, some 0x2C⟩,
  ⟨"uk_UA", [3], 0x2C, some 0x202F⟩,
  ⟨"unm_US", [2, 2, 2, 3], 0x2E, some 0x202F⟩,
  ⟨"ur_IN", [3], 0x2E, some 0x2C⟩,
  ⟨"ur_PK", [3], 0x2E, some 0x2C⟩,
  ⟨"uz_UZ", [3], 0x2E, some 0x2C⟩,
  ⟨"ve_ZA", [3], 0x2E, some 0x2C⟩,
  ⟨"vi_VN", [3], 0x2C, some 0x2E⟩,
  ⟨"wa_BE", [3], 0x2C, some 0x2E⟩,
  ⟨"wae_CH", [3], 0x2E, some 0x27⟩,
  ⟨"wal_ET", [3], 0x2E, some 0x2C⟩,
  ⟨"wo_SN", [], 0x2C, none⟩,
  ⟨"xh_ZA", [3], 0x2E, some 0x2C⟩,
  ⟨"yi_US", [3], 0x2E, some 0x2C⟩,
  ⟨"yo_NG", [3], 0x2E, some 0x2C⟩,
  ⟨"yue_HK", [3], 0x2E, some 0x2C⟩,
  ⟨"yuw_PG", [3], 0x2E, some 0x2C⟩,
  ⟨"zh_CN", [3], 0x2E, some 0x2C⟩,
  ⟨"zh_HK", [3], 0x2E, some 0x2C⟩,
  ⟨"zh_SG", [3], 0x2E, some 0x2C⟩,
  ⟨"zh_TW", [3], 0x2E, some 0x2C⟩,
  ⟨"zu_ZA", [3], 0x2E, some 0x2C⟩]

end Strf.Punct
