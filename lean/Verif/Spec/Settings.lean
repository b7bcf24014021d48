import Verif.Model.Globals

/-!
# Independent specification: what a setting procedure may change
-/

namespace Acm.Spec

/-- The names of the settings. -/
inductive Setting where
  | eig_sft
  | rat_sft
  | amp_sft
  | rel_pre
  | rel_wid
  | low_pre
  | eig_num
  | rat_num
  | amp_num
  | eig_fit
  | eig_L
  | eig_idx
  | rat_fit
  | rat_L1
  | rat_L2
  | rat_1dx
  | rat_2dx
  | lam_fun
  | rat_TRop
  | rat_TRopAM
  | rat_fun
  | rat_format
  | rat_desg
  | amp_fun
  | amp_format
  | amp_desg
  | amp_sft_fun
  | tran_format
  | tran_fill
  | rat_lst
  | amp_lst
  | eig_rel
  | nu_lap

/-- The two states agree on a setting. -/
def Setting.Same : Setting → Glb → Glb → Prop
  | .eig_sft, g, h => g.eig_sft = h.eig_sft
  | .rat_sft, g, h => g.rat_sft = h.rat_sft
  | .amp_sft, g, h => g.amp_sft = h.amp_sft
  | .rel_pre, g, h => g.rel_pre = h.rel_pre
  | .rel_wid, g, h => g.rel_wid = h.rel_wid
  | .low_pre, g, h => g.low_pre = h.low_pre
  | .eig_num, g, h => g.eig_num = h.eig_num
  | .rat_num, g, h => g.rat_num = h.rat_num
  | .amp_num, g, h => g.amp_num = h.amp_num
  | .eig_fit, g, h => g.eig_fit = h.eig_fit
  | .eig_L, g, h => g.eig_L = h.eig_L
  | .eig_idx, g, h => g.eig_idx = h.eig_idx
  | .rat_fit, g, h => g.rat_fit = h.rat_fit
  | .rat_L1, g, h => g.rat_L1 = h.rat_L1
  | .rat_L2, g, h => g.rat_L2 = h.rat_L2
  | .rat_1dx, g, h => g.rat_1dx = h.rat_1dx
  | .rat_2dx, g, h => g.rat_2dx = h.rat_2dx
  | .lam_fun, g, h => g.lam_fun = h.lam_fun
  | .rat_TRop, g, h => g.rat_TRop = h.rat_TRop
  | .rat_TRopAM, g, h => g.rat_TRopAM = h.rat_TRopAM
  | .rat_fun, g, h => g.rat_fun = h.rat_fun
  | .rat_format, g, h => g.rat_format = h.rat_format
  | .rat_desg, g, h => g.rat_desg = h.rat_desg
  | .amp_fun, g, h => g.amp_fun = h.amp_fun
  | .amp_format, g, h => g.amp_format = h.amp_format
  | .amp_desg, g, h => g.amp_desg = h.amp_desg
  | .amp_sft_fun, g, h => g.amp_sft_fun = h.amp_sft_fun
  | .tran_format, g, h => g.tran_format = h.tran_format
  | .tran_fill, g, h => g.tran_fill = h.tran_fill
  | .rat_lst, g, h => g.rat_lst = h.rat_lst
  | .amp_lst, g, h => g.amp_lst = h.amp_lst
  | .eig_rel, g, h => g.eig_rel = h.eig_rel
  | .nu_lap, g, h => g.nu_lap = h.nu_lap

/-- Only the listed settings may differ. -/
def ChangesOnly (S : List Setting) (g h : Glb) : Prop := ∀ s, s ∉ S → s.Same g h

/-- The optional argument is absent or satisfies `P`. -/
def IfGiven {α : Type} (x : Option α) (P : α → Prop) : Prop := ∀ a, x = some a → P a

end Acm.Spec
