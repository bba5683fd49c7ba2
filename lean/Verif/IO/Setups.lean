import Verif.IO.Attrs

/-! # The `_setup` configuration of the spectral consolidation classes

Generated by tools/gen_setup.py from the literals in /repo. -/

namespace Geotecha.IO

/-- `Speccon1dVR._setup` `_attributes`, speccon1d_vr.py:491-505. -/
def vrAttributes : List String :=
  ["H", "drn", "dT", "neig", "mvref", "kvref", "khref", "etref", "dTh", "dTv", "mv", "kh", "kv", "et", "surcharge_vs_depth", "surcharge_vs_time", "vacuum_vs_depth", "vacuum_vs_time", "top_vs_time", "bot_vs_time", "ppress_z", "avg_ppress_z_pairs", "settlement_z_pairs", "tvals", "implementation", "ppress_z_tval_indexes", "avg_ppress_z_pairs_tval_indexes", "settlement_z_pairs_tval_indexes", "fixed_ppress", "surcharge_omega_phase", "vacuum_omega_phase", "fixed_ppress_omega_phase", "top_omega_phase", "bot_omega_phase", "pumping", "pumping_omega_phase", "RLzero", "prefix"]

/-- `Speccon1dVR._setup`, speccon1d_vr.py:491-569. -/
def vrSetup : Setup where
  zeroOrAll := [
    ["dTh", "kh", "et"],
    ["dTv", "kv"],
    ["surcharge_vs_depth", "surcharge_vs_time"],
    ["vacuum_vs_depth", "vacuum_vs_time"]]
  atLeastOne := [
    ["mv"],
    ["dTh", "dTv"],
    ["kh", "kv"],
    ["surcharge_vs_time", "vacuum_vs_time", "top_vs_time", "bot_vs_time", "fixed_ppress", "pumping"],
    ["tvals"],
    ["ppress_z", "avg_ppress_z_pairs", "settlement_z_pairs"]]
  oneImplies := [
    ["vacuum_vs_time", "dTh", "kh", "et"],
    ["vacuum_vs_depth", "dTh", "kh", "et"],
    ["surcharge_omega_phase", "surcharge_vs_depth", "surcharge_vs_time"],
    ["vacuum_omega_phase", "vacuum_vs_depth", "vacuum_vs_time"],
    ["fixed_ppress_omega_phase", "fixed_ppress"],
    ["top_omega_phase", "top_vs_time"],
    ["bot_omega_phase", "bot_vs_time"],
    ["pumping_omega_phase", "pumping"]]
  lists := ["surcharge_vs_depth", "surcharge_vs_time", "surcharge_omega_phase", "vacuum_vs_depth", "vacuum_vs_time", "vacuum_omega_phase", "top_vs_time", "top_omega_phase", "bot_vs_time", "bot_omega_phase", "fixed_ppress", "fixed_ppress_omega_phase", "pumping", "pumping_omega_phase"]
  sameLen := [
    ["surcharge_vs_time", "surcharge_omega_phase"],
    ["vacuum_vs_time", "vacuum_omega_phase"],
    ["fixed_ppress", "fixed_ppress_omega_phase"],
    ["top_vs_time", "top_omega_phase"],
    ["bot_vs_time", "bot_omega_phase"],
    ["pumping", "pumping_omega_phase"]]
  sameLimits := [
    ["mv", "kv", "kh", "et", "surcharge_vs_depth", "vacuum_vs_depth"]]
  lenPairs := [
    ["surcharge_vs_depth", "surcharge_vs_time"],
    ["surcharge_vs_time", "surcharge_omega_phase"],
    ["vacuum_vs_depth", "vacuum_vs_time"],
    ["vacuum_vs_time", "vacuum_omega_phase"],
    ["top_vs_time", "top_omega_phase"],
    ["bot_vs_time", "bot_omega_phase"],
    ["fixed_ppress_omega_phase", "fixed_ppress"],
    ["pumping", "pumping_omega_phase"]]

/-- `Speccon1dVRW._setup` `_attributes`, speccon1d_vrw.py:512-526. -/
def vrwAttributes : List String :=
  ["H", "drn", "dT", "neig", "mvref", "kvref", "khref", "etref", "dTh", "dTv", "dTw", "mv", "kh", "kv", "kw", "et", "surcharge_vs_depth", "surcharge_vs_time", "top_vs_time", "bot_vs_time", "ppress_z", "avg_ppress_z_pairs", "settlement_z_pairs", "tvals", "implementation", "ppress_z_tval_indexes", "avg_ppress_z_pairs_tval_indexes", "settlement_z_pairs_tval_indexes", "fixed_ppress", "surcharge_omega_phase", "fixed_ppress_omega_phase", "top_omega_phase", "bot_omega_phase", "pumping", "pumping_omega_phase", "RLzero", "prefix"]

/-- `Speccon1dVRW._setup`, speccon1d_vrw.py:512-584. -/
def vrwSetup : Setup where
  zeroOrAll := [
    ["dTv", "kv"],
    ["surcharge_vs_depth", "surcharge_vs_time"]]
  atLeastOne := [
    ["dTh"],
    ["dTw"],
    ["mv"],
    ["surcharge_vs_time", "top_vs_time", "bot_vs_time", "fixed_ppress", "pumping"],
    ["tvals"],
    ["ppress_z", "avg_ppress_z_pairs", "settlement_z_pairs"]]
  oneImplies := [
    ["surcharge_omega_phase", "surcharge_vs_depth", "surcharge_vs_time"],
    ["fixed_ppress_omega_phase", "fixed_ppress"],
    ["top_omega_phase", "top_vs_time"],
    ["bot_omega_phase", "bot_vs_time"],
    ["pumping_omega_phase", "pumping"],
    ["dTh", "kh", "et"],
    ["dTw", "kw"]]
  lists := ["surcharge_vs_depth", "surcharge_vs_time", "surcharge_omega_phase", "top_vs_time", "top_omega_phase", "bot_vs_time", "bot_omega_phase", "fixed_ppress", "fixed_ppress_omega_phase", "pumping", "pumping_omega_phase"]
  sameLen := [
    ["surcharge_vs_time", "surcharge_omega_phase"],
    ["fixed_ppress", "fixed_ppress_omega_phase"],
    ["top_vs_time", "top_omega_phase"],
    ["bot_vs_time", "bot_omega_phase"],
    ["pumping", "pumping_omega_phase"]]
  sameLimits := [
    ["mv", "kv", "kh", "kw", "et", "surcharge_vs_depth"]]
  lenPairs := [
    ["surcharge_vs_depth", "surcharge_vs_time"],
    ["surcharge_vs_time", "surcharge_omega_phase"],
    ["top_vs_time", "top_omega_phase"],
    ["bot_vs_time", "bot_omega_phase"],
    ["fixed_ppress_omega_phase", "fixed_ppress"],
    ["pumping", "pumping_omega_phase"]]

/-- `Speccon1dVRC._setup` `_attributes`, speccon1d_vrc.py:524-539. -/
def vrcAttributes : List String :=
  ["H", "drn", "dT", "neig", "n", "mvref", "kvref", "kvcref", "khref", "khcref", "etref", "dTh", "dTv", "dTvc", "dThc", "mv", "kh", "kv", "et", "khc", "kvc", "surcharge_vs_depth", "surcharge_vs_time", "top_vs_time", "bot_vs_time", "ppress_z", "avg_ppress_z_pairs", "settlement_z_pairs", "tvals", "implementation", "ppress_z_tval_indexes", "avg_ppress_z_pairs_tval_indexes", "settlement_z_pairs_tval_indexes", "surcharge_omega_phase", "top_omega_phase", "bot_omega_phase", "RLzero", "prefix"]

/-- `Speccon1dVRC._setup`, speccon1d_vrc.py:524-595. -/
def vrcSetup : Setup where
  zeroOrAll := [
    ["dTv", "kv"],
    ["surcharge_vs_depth", "surcharge_vs_time"]]
  atLeastOne := [
    ["dTh"],
    ["dThc"],
    ["dTvc"],
    ["dTv"],
    ["mv"],
    ["n"],
    ["surcharge_vs_time", "top_vs_time", "bot_vs_time"],
    ["tvals"],
    ["ppress_z", "avg_ppress_z_pairs", "settlement_z_pairs"]]
  oneImplies := [
    ["surcharge_omega_phase", "surcharge_vs_depth", "surcharge_vs_time"],
    ["top_omega_phase", "top_vs_time"],
    ["bot_omega_phase", "bot_vs_time"],
    ["dTh", "kh", "et"],
    ["dThc", "khc"],
    ["dTvc", "kvc", "et"],
    ["dTv", "kv"]]
  lists := ["surcharge_vs_depth", "surcharge_vs_time", "surcharge_omega_phase", "top_vs_time", "top_omega_phase", "bot_vs_time", "bot_omega_phase"]
  sameLen := [
    ["surcharge_vs_time", "surcharge_omega_phase"],
    ["top_vs_time", "top_omega_phase"],
    ["bot_vs_time", "bot_omega_phase"]]
  sameLimits := [
    ["mv", "kv", "kh", "kvc", "khc", "et", "surcharge_vs_depth"]]
  lenPairs := [
    ["surcharge_vs_depth", "surcharge_vs_time"],
    ["surcharge_vs_time", "surcharge_omega_phase"],
    ["top_vs_time", "top_omega_phase"],
    ["bot_vs_time", "bot_omega_phase"]]

/-- `Speccon1dUnsat._setup` `_attributes`, speccon1d_unsat.py:513-531. -/
def unsatAttributes : List String :=
  ["H", "drn", "dT", "neig", "mvref", "kwref", "Daref", "dTw", "dTa", "m1ka", "m1kw", "m2a", "m2w", "kw", "Da", "surcharge_vs_depth", "surcharge_vs_time", "atop_vs_time", "abot_vs_time", "wtop_vs_time", "wbot_vs_time", "ppress_z", "avg_ppress_z_pairs", "settlement_z_pairs", "tvals", "implementation", "ppress_z_tval_indexes", "avg_ppress_z_pairs_tval_indexes", "settlement_z_pairs_tval_indexes", "surcharge_omega_phase", "atop_omega_phase", "abot_omega_phase", "wtop_omega_phase", "wbot_omega_phase", "RLzero", "prefix", "plot_properties", "ua_", "n", "S"]

/-- `Speccon1dUnsat._setup`, speccon1d_unsat.py:513-594. -/
def unsatSetup : Setup where
  zeroOrAll := [
    ["surcharge_vs_depth", "surcharge_vs_time"]]
  atLeastOne := [
    ["dTw"],
    ["dTa"],
    ["m1ka"],
    ["m1kw"],
    ["m2a"],
    ["m2w"],
    ["kw"],
    ["Da"],
    ["n"],
    ["S"],
    ["surcharge_vs_time", "atop_vs_time", "abot_vs_time", "wtop_vs_time", "wbot_vs_time"],
    ["tvals"],
    ["ppress_z", "avg_ppress_z_pairs", "settlement_z_pairs"]]
  oneImplies := [
    ["surcharge_omega_phase", "surcharge_vs_depth", "surcharge_vs_time"],
    ["atop_omega_phase", "atop_vs_time"],
    ["abot_omega_phase", "abot_vs_time"],
    ["wtop_omega_phase", "wtop_vs_time"],
    ["wbot_omega_phase", "wbot_vs_time"]]
  lists := ["surcharge_vs_depth", "surcharge_vs_time", "surcharge_omega_phase", "atop_vs_time", "atop_omega_phase", "abot_vs_time", "abot_omega_phase", "wtop_vs_time", "wtop_omega_phase", "wbot_vs_time", "wbot_omega_phase"]
  sameLen := [
    ["surcharge_vs_time", "surcharge_omega_phase"],
    ["atop_vs_time", "atop_omega_phase"],
    ["abot_vs_time", "abot_omega_phase"],
    ["wtop_vs_time", "wtop_omega_phase"],
    ["wbot_vs_time", "wbot_omega_phase"]]
  sameLimits := [
    ["m1ka", "m1kw", "m2a", "m2w", "kw", "Da", "surcharge_vs_depth", "n", "S"]]
  lenPairs := [
    ["surcharge_vs_depth", "surcharge_vs_time"],
    ["surcharge_vs_time", "surcharge_omega_phase"],
    ["atop_vs_time", "atop_omega_phase"],
    ["abot_vs_time", "abot_omega_phase"],
    ["wtop_vs_time", "wtop_omega_phase"],
    ["wbot_vs_time", "wbot_omega_phase"]]

end Geotecha.IO
