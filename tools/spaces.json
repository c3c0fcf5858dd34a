{"ccd_t2residual": [[1, 1, 0, 0], [0, 0, 0, 0]], "doubles_resLCCDoffset": [[1, 1, 0, 0], [0, 0, 0, 0]], "ccdEnergy": [[], []], "pccdEnergy": [[], []], "ccdq_t2eqns": [[0, 0, 1, 1], [0, 0, 0, 0]], "ccdq_t4eqns": [[0, 0, 0, 0, 1, 1, 1, 1], [0, 0, 0, 0, 0, 0, 0, 0]], "spinorbitalCCSDE": [[], []], "spinorbitalCCDE": [[], []], "ccsd_t1resid": [[0, 1], [0, 0]], "ccsd_t2resid": [[0, 0, 1, 1], [0, 0, 0, 0]], "ccsdt_t1eqns": [[0, 1], [0, 0]], "ccsdt_t2eqns": [[0, 0, 1, 1], [0, 0, 0, 0]], "ccsdt_t3eqns": [[0, 0, 0, 1, 1, 1], [0, 0, 0, 0, 0, 0]], "residQf1": [[1, 1, 0, 0], [0, 0, 0, 0]], "residQf2": [[1, 1, 0, 0], [0, 0, 0, 0]], "unsym_residQf1": [[1, 1, 1, 1, 0, 0, 0, 0], [0, 0, 0, 0, 0, 0, 0, 0]], "unsym_residQf2": [[1, 1, 1, 1, 0, 0, 0, 0], [0, 0, 0, 0, 0, 0, 0, 0]], "energy_pertQf": [[], []], "optWnT3": [[0, 0, 1, 1], [0, 0, 0, 0]], "optWnT2sqr": [[0, 0, 1, 1], [0, 0, 0, 0]], "T3portion_Qf": [[0, 0, 1, 1], [0, 0, 0, 0]], "build_approxT3": [[0, 0, 0, 1, 1, 1], [0, 0, 0, 0, 0, 0]], "wnT2T3_toT4": [[0, 0, 0, 0, 1, 1, 1, 1], [0, 0, 0, 0, 0, 0, 0, 0]], "wnT2cubed_toT4": [[0, 0, 0, 0, 1, 1, 1, 1], [0, 0, 0, 0, 0, 0, 0, 0]], "wnT2cubed_toT2": [[0, 0, 1, 1], [0, 0, 0, 0]], "wnT2T3_toT2": [[0, 0, 1, 1], [0, 0, 0, 0]], "t4_test_residual": [[1, 1, 1, 1, 0, 0, 0, 0], [0, 0, 0, 0, 0, 0, 0, 0]], "t4_test_residual_oo": [[1, 1, 1, 1, 0, 0, 0, 0], [0, 0, 0, 0, 0, 0, 0, 0]], "ccd_t2_aaaa": [[1, 1, 0, 0], [0, 0, 0, 0]], "ccd_t2_bbbb": [[1, 1, 0, 0], [1, 1, 1, 1]], "ccd_t2_abab": [[1, 1, 0, 0], [0, 1, 0, 1]], "ccd_energy_with_spin": [[], []], "ccdq_t2_aaaa": [[1, 1, 0, 0], [0, 0, 0, 0]], "ccdq_t2_bbbb": [[1, 1, 0, 0], [1, 1, 1, 1]], "ccdq_t2_abab": [[1, 1, 0, 0], [0, 1, 0, 1]], "ccdq_t4_aaaaaaaa": [[1, 1, 1, 1, 0, 0, 0, 0], [0, 0, 0, 0, 0, 0, 0, 0]], "ccdq_t4_aaabaaab": [[1, 1, 1, 1, 0, 0, 0, 0], [0, 0, 0, 1, 0, 0, 0, 1]], "ccdq_t4_aabbaabb": [[1, 1, 1, 1, 0, 0, 0, 0], [0, 0, 1, 1, 0, 0, 1, 1]], "ccdq_t4_abbbabbb": [[1, 1, 1, 1, 0, 0, 0, 0], [0, 1, 1, 1, 0, 1, 1, 1]], "ccdq_t4_bbbbbbbb": [[1, 1, 1, 1, 0, 0, 0, 0], [1, 1, 1, 1, 1, 1, 1, 1]], "ccsd_energy_with_spin": [[], []], "ccsdt_t1_aa": [[1, 0], [0, 0]], "ccsdt_t1_bb": [[1, 0], [1, 1]], "ccsdt_t2_aaaa": [[1, 1, 0, 0], [0, 0, 0, 0]], "ccsdt_t2_bbbb": [[1, 1, 0, 0], [1, 1, 1, 1]], "ccsdt_t2_abab": [[1, 1, 0, 0], [0, 1, 0, 1]], "ccsdt_t3_aaaaaa": [[1, 1, 1, 0, 0, 0], [0, 0, 0, 0, 0, 0]], "ccsdt_t3_aabaab": [[1, 1, 1, 0, 0, 0], [0, 0, 1, 0, 0, 1]], "ccsdt_t3_abbabb": [[1, 1, 1, 0, 0, 0], [0, 1, 1, 0, 1, 1]], "ccsdt_t3_bbbbbb": [[1, 1, 1, 0, 0, 0], [1, 1, 1, 1, 1, 1]], "si_energy_pertQf_t4": [[], []], "residQf1_aaaa": [[1, 1, 0, 0], [0, 0, 0, 0]], "residQf1_abab": [[1, 1, 0, 0], [0, 1, 0, 1]], "residQf1_bbbb": [[1, 1, 0, 0], [1, 1, 1, 1]], "residQf2_aaaa": [[1, 1, 0, 0], [0, 0, 0, 0]], "residQf2_abab": [[1, 1, 0, 0], [0, 1, 0, 1]], "residQf2_bbbb": [[1, 1, 0, 0], [1, 1, 1, 1]], "si_energy_pertQf": [[], []], "approxT3_aaaaaa": [[1, 1, 1, 0, 0, 0], [0, 0, 0, 0, 0, 0]], "approxT3_aabaab": [[1, 1, 1, 0, 0, 0], [0, 0, 1, 0, 0, 1]], "approxT3_abbabb": [[1, 1, 1, 0, 0, 0], [0, 1, 1, 0, 1, 1]], "approxT3_bbbbbb": [[1, 1, 1, 0, 0, 0], [1, 1, 1, 1, 1, 1]], "square_brakT": [[], []], "ccsdtq_t4_aaaaaaaa": [[1, 1, 1, 1, 0, 0, 0, 0], [0, 0, 0, 0, 0, 0, 0, 0]], "ccsdtq_t4_aaabaaab": [[1, 1, 1, 1, 0, 0, 0, 0], [0, 0, 0, 1, 0, 0, 0, 1]], "ccsdtq_t4_aabbaabb": [[1, 1, 1, 1, 0, 0, 0, 0], [0, 0, 1, 1, 0, 0, 1, 1]], "ccsdtq_t4_abbbabbb": [[1, 1, 1, 1, 0, 0, 0, 0], [0, 1, 1, 1, 0, 1, 1, 1]], "ccsdtq_t4_bbbbbbbb": [[1, 1, 1, 1, 0, 0, 0, 0], [1, 1, 1, 1, 1, 1, 1, 1]], "ccsdtqT2cubed_t4_aaaaaaaa": [[1, 1, 1, 1, 0, 0, 0, 0], [0, 0, 0, 0, 0, 0, 0, 0]], "ccsdtqT2cubed_t4_aaabaaab": [[1, 1, 1, 1, 0, 0, 0, 0], [0, 0, 0, 1, 0, 0, 0, 1]], "ccsdtqT2cubed_t4_aabbaabb": [[1, 1, 1, 1, 0, 0, 0, 0], [0, 0, 1, 1, 0, 0, 1, 1]], "ccsdtqT2cubed_t4_abbbabbb": [[1, 1, 1, 1, 0, 0, 0, 0], [0, 1, 1, 1, 0, 1, 1, 1]], "ccsdtqT2cubed_t4_bbbbbbbb": [[1, 1, 1, 1, 0, 0, 0, 0], [1, 1, 1, 1, 1, 1, 1, 1]], "test_t2_aaaa": [[1, 1, 0, 0], [0, 0, 0, 0]], "test_t2_abab": [[1, 1, 0, 0], [0, 1, 0, 1]], "test_t2_bbbb": [[1, 1, 0, 0], [1, 1, 1, 1]], "build_T3": [[1, 1, 1, 0, 0, 0], [0, 0, 0, 0, 0, 0]], "pdagq_T3energy": [[], []], "pdagq_ccsd_energy": [[], []], "fifthOrder_capC": [[1, 1, 1, 0, 0, 0], [0, 0, 0, 0, 0, 0]], "fifthOrder_capA": [[1, 1, 1, 0, 0, 0], [0, 0, 0, 0, 0, 0]], "contractE": [[], []], "build_T3_thirdO": [[0, 0, 0, 1, 1, 1], [0, 0, 0, 0, 0, 0]], "build_netT2": [[0, 0, 1, 1], [0, 0, 0, 0]], "build_T3_secondO": [[0, 0, 0, 1, 1, 1], [0, 0, 0, 0, 0, 0]], "getE_squareBrackT": [[], []], "getE_parenT_t1": [[], []], "get_netT1_fromT2": [[0, 1], [0, 0]], "get_netT1_thirdO": [[0, 1], [0, 0]], "get_T2resid_fromT1bar": [[0, 0, 1, 1], [0, 0, 0, 0]], "t1_residEqns": [[1, 0], [0, 0]], "t3_resid": [[1, 1, 1, 0, 0, 0], [0, 0, 0, 0, 0, 0]], "offset_t2resid_t2squared": [[1, 1, 0, 0], [0, 0, 0, 0]], "offset_t2resid_t2dag_w_t2": [[1, 1, 0, 0], [0, 0, 0, 0]], "offset_t2resid_T1_T3": [[1, 1, 0, 0], [0, 0, 0, 0]], "xccd5_quad": [[0, 0, 0, 0, 1, 1, 1, 1], [0, 0, 0, 0, 0, 0, 0, 0]], "xccd6_quad": [[0, 0, 0, 0, 1, 1, 1, 1], [0, 0, 0, 0, 0, 0, 0, 0]], "get_xcc7residual": [[0, 0, 0, 0, 1, 1, 1, 1], [0, 0, 0, 0, 0, 0, 0, 0]], "get_xcc8residual": [[0, 0, 0, 0, 1, 1, 1, 1], [0, 0, 0, 0, 0, 0, 0, 0]], "get_xcc9residual": [[0, 0, 0, 0, 1, 1, 1, 1], [0, 0, 0, 0, 0, 0, 0, 0]]}