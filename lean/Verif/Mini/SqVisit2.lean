import Verif.Mini.SqVisit

/-! # Running /repo/entmq/entsql.go: comparisons, ranges, and functions -/

namespace Verif.Mini
open Verif

set_option linter.unusedSimpArgs false

variable {Q : Char → Bool} {N n k kk D m e : Nat} {h g g0 g' : Heap} {L : Lib} {p : SPar} {S : Sit} {mb : MB} {Z : Sch} {args : List Val}

set_option maxHeartbeats 1000000 in
theorem sv_cmp (l o r) (I : SIn Z S g0 m e g) (hf : Fits S mb) (hz : g.mem e = .nil) (ih : SBelow Q N D p Z S k (n + 2) kk) (hl : lvl (.cmp l o r) ≤ kk) (hc : Complete l) (hc' : Complete r) (hn : o ≠ .nil) :
    SDone S g0 (sVisitAt (sqCall Q N D p k (n + 2)) 9 scase_compare (sLocals S m e (.cmp l o r)) (sHeap S mb g)) (svisit (senv p Z.G (!S.dis)) S.node (.cmp l o r) mb) := by
  rw [lvl] at hl
  have ho' := fun h => sq_Oper (h := h) hn
  have hm := operation_some hn
  generalize (operation o).getD [] = w at ho' hm
  have fl := fun s => fget_lookup (fun kv : Str × Str => Val.lib kv.2) s opPairs
  obtain ⟨⟨g1, K1, Rl⟩, Fl⟩ := ih l (by omega) hc g mb I.at_ hf
  have Il := I.keep K1
  have up1 : c!"not like".map Char.toUpper = c!"NOT LIKE" := by decide
  have up2 : c!"and".map Char.toUpper = c!"AND" := by decide
  have up3 : c!"or".map Char.toUpper = c!"OR" := by decide
  cases el : svisit (senv p Z.G (!S.dis)) S.node l mb with
  | panic =>
    rw [el] at Rl
    refine ⟨⟨g, I.keeps, ?_⟩, ?_⟩
    · gorun [sLocals, sVisitAt, safter_norm, safter_ret, safter_panic, endSwitch_norm, endSwitch_ret, endSwitch_panic, sp_mb, sp_node, sp_s, sp_errors, sp_miniquery, sp_xstrings, sp_strings, sp_sql, sin_at (g0 := g0) (m := m) (e := e), sin_m (Z := Z) (g0 := g0) (m := m) (e := e), sin_e (Z := Z) (g0 := g0) (m := m) (e := e), sin_pute (Z := Z) (g0 := g0) (m := m) (e := e), sin_in, fits_put, fits_write, fits_join, hf, hz, I, write_write, ss_WriteString (Z := Z), sl_WriteString (Z := Z), same_sErr, svisit, sqOut, SRes.also, SRes.andThen, execSwitch, execFrom, anySame, scase_compare, sq_LeftCmp, Rl, el, sBin]
    · simp [svisit, sBin, el, SFits]
  | err e1 mb1 =>
    rw [el] at Rl Fl
    simp only [SFits] at Fl
    have key : ∃ t, binText w = t := ⟨_, rfl⟩
    rcases op_lookup w with ⟨h1, h2⟩ | ⟨ow, t, h1, h2, h3⟩
    · have hw := True.intro
      by_cases w1 : w = c!"not like"
      · subst w1
        have hb : binText c!"not like" = some c!" NOT LIKE " := by decide
        refine ⟨⟨g1.put e (sErrVal e1), skeeps_put Il.keeps Il.e0 _, ?_⟩, ?_⟩
        · gorun [sLocals, sVisitAt, safter_norm, safter_ret, safter_panic, endSwitch_norm, endSwitch_ret, endSwitch_panic, sp_mb, sp_node, sp_s, sp_errors, sp_miniquery, sp_xstrings, sp_strings, sp_sql, sin_at (g0 := g0) (m := m) (e := e), sin_m (Z := Z) (g0 := g0) (m := m) (e := e), sin_e (Z := Z) (g0 := g0) (m := m) (e := e), sin_pute (Z := Z) (g0 := g0) (m := m) (e := e), sin_in, fits_put, fits_write, fits_join, hf, hz, I, write_write, ss_WriteString (Z := Z), sl_WriteString (Z := Z), same_sErr, svisit, sqOut, SRes.also, SRes.andThen, execSwitch, execFrom, anySame, scase_compare, sq_LeftCmp, sq_OpCmp, sq_RightCmp, ho', hm, hb, sg_OpMap, fl, h2, vc_op, vc_found, sBin, Rl, el, sg_NotLike, sg_And, sg_Or, ss_Pad (Z := Z), sl_Pad (Z := Z), sg_Upper, sl_Upper, ss_WriteOp (Z := Z), sg_Errorf, sl_Errorf, sErr_unexpectedOp, hw, up1, up2, up3, Fl, Il]
        · simp [svisit, sBin, hm, hb, el, SRes.also, SRes.andThen, SFits, fits_write, Fl, write_write]
      · by_cases w2 : w = c!"and"
        · subst w2
          have hb : binText c!"and" = some c!" AND " := by decide
          refine ⟨⟨g1.put e (sErrVal e1), skeeps_put Il.keeps Il.e0 _, ?_⟩, ?_⟩
          · gorun [sLocals, sVisitAt, safter_norm, safter_ret, safter_panic, endSwitch_norm, endSwitch_ret, endSwitch_panic, sp_mb, sp_node, sp_s, sp_errors, sp_miniquery, sp_xstrings, sp_strings, sp_sql, sin_at (g0 := g0) (m := m) (e := e), sin_m (Z := Z) (g0 := g0) (m := m) (e := e), sin_e (Z := Z) (g0 := g0) (m := m) (e := e), sin_pute (Z := Z) (g0 := g0) (m := m) (e := e), sin_in, fits_put, fits_write, fits_join, hf, hz, I, write_write, ss_WriteString (Z := Z), sl_WriteString (Z := Z), same_sErr, svisit, sqOut, SRes.also, SRes.andThen, execSwitch, execFrom, anySame, scase_compare, sq_LeftCmp, sq_OpCmp, sq_RightCmp, ho', hm, hb, sg_OpMap, fl, h2, vc_op, vc_found, sBin, Rl, el, sg_NotLike, sg_And, sg_Or, ss_Pad (Z := Z), sl_Pad (Z := Z), sg_Upper, sl_Upper, ss_WriteOp (Z := Z), sg_Errorf, sl_Errorf, sErr_unexpectedOp, hw, up1, up2, up3, Fl, Il]
          · simp [svisit, sBin, hm, hb, el, SRes.also, SRes.andThen, SFits, fits_write, Fl, write_write]
        · by_cases w3 : w = c!"or"
          · subst w3
            have hb : binText c!"or" = some c!" OR " := by decide
            refine ⟨⟨g1.put e (sErrVal e1), skeeps_put Il.keeps Il.e0 _, ?_⟩, ?_⟩
            · gorun [sLocals, sVisitAt, safter_norm, safter_ret, safter_panic, endSwitch_norm, endSwitch_ret, endSwitch_panic, sp_mb, sp_node, sp_s, sp_errors, sp_miniquery, sp_xstrings, sp_strings, sp_sql, sin_at (g0 := g0) (m := m) (e := e), sin_m (Z := Z) (g0 := g0) (m := m) (e := e), sin_e (Z := Z) (g0 := g0) (m := m) (e := e), sin_pute (Z := Z) (g0 := g0) (m := m) (e := e), sin_in, fits_put, fits_write, fits_join, hf, hz, I, write_write, ss_WriteString (Z := Z), sl_WriteString (Z := Z), same_sErr, svisit, sqOut, SRes.also, SRes.andThen, execSwitch, execFrom, anySame, scase_compare, sq_LeftCmp, sq_OpCmp, sq_RightCmp, ho', hm, hb, sg_OpMap, fl, h2, vc_op, vc_found, sBin, Rl, el, sg_NotLike, sg_And, sg_Or, ss_Pad (Z := Z), sl_Pad (Z := Z), sg_Upper, sl_Upper, ss_WriteOp (Z := Z), sg_Errorf, sl_Errorf, sErr_unexpectedOp, hw, up1, up2, up3, Fl, Il]
            · simp [svisit, sBin, hm, hb, el, SRes.also, SRes.andThen, SFits, fits_write, Fl, write_write]
          · have hb : binText w = none := by simp [binText, h1, w1, w2, w3]
            refine ⟨⟨g1.put e (sErrVal e1), skeeps_put Il.keeps Il.e0 _, ?_⟩, ?_⟩
            · gorun [sLocals, sVisitAt, safter_norm, safter_ret, safter_panic, endSwitch_norm, endSwitch_ret, endSwitch_panic, sp_mb, sp_node, sp_s, sp_errors, sp_miniquery, sp_xstrings, sp_strings, sp_sql, sin_at (g0 := g0) (m := m) (e := e), sin_m (Z := Z) (g0 := g0) (m := m) (e := e), sin_e (Z := Z) (g0 := g0) (m := m) (e := e), sin_pute (Z := Z) (g0 := g0) (m := m) (e := e), sin_in, fits_put, fits_write, fits_join, hf, hz, I, write_write, ss_WriteString (Z := Z), sl_WriteString (Z := Z), same_sErr, svisit, sqOut, SRes.also, SRes.andThen, execSwitch, execFrom, anySame, scase_compare, sq_LeftCmp, sq_OpCmp, sq_RightCmp, ho', hm, hb, sg_OpMap, fl, h2, vc_op, vc_found, sBin, Rl, el, sg_NotLike, sg_And, sg_Or, ss_Pad (Z := Z), sl_Pad (Z := Z), sg_Upper, sl_Upper, ss_WriteOp (Z := Z), sg_Errorf, sl_Errorf, sErr_unexpectedOp, hw, up1, up2, up3, Fl, Il, w1, w2, w3]
            · simp [svisit, sBin, hm, hb, el, SRes.also, SRes.andThen, SFits, fits_write, Fl, write_write]
    · have hw := fun n g mb A hf => sl_WriteOp (Q := Q) (N := N) (D := D) (p := p) (k := k) (n := n) (g := g) (mb := mb) (S := S) (Z := Z) A hf ow t h3
      have hb : binText w = some t := by simp [binText, h1]
      refine ⟨⟨g1.put e (sErrVal e1), skeeps_put Il.keeps Il.e0 _, ?_⟩, ?_⟩
      · gorun [sLocals, sVisitAt, safter_norm, safter_ret, safter_panic, endSwitch_norm, endSwitch_ret, endSwitch_panic, sp_mb, sp_node, sp_s, sp_errors, sp_miniquery, sp_xstrings, sp_strings, sp_sql, sin_at (g0 := g0) (m := m) (e := e), sin_m (Z := Z) (g0 := g0) (m := m) (e := e), sin_e (Z := Z) (g0 := g0) (m := m) (e := e), sin_pute (Z := Z) (g0 := g0) (m := m) (e := e), sin_in, fits_put, fits_write, fits_join, hf, hz, I, write_write, ss_WriteString (Z := Z), sl_WriteString (Z := Z), same_sErr, svisit, sqOut, SRes.also, SRes.andThen, execSwitch, execFrom, anySame, scase_compare, sq_LeftCmp, sq_OpCmp, sq_RightCmp, ho', hm, hb, sg_OpMap, fl, h2, vc_op, vc_found, sBin, Rl, el, sg_NotLike, sg_And, sg_Or, ss_Pad (Z := Z), sl_Pad (Z := Z), sg_Upper, sl_Upper, ss_WriteOp (Z := Z), sg_Errorf, sl_Errorf, sErr_unexpectedOp, hw, up1, up2, up3, Fl, Il]
      · simp [svisit, sBin, hm, hb, el, SRes.also, SRes.andThen, SFits, fits_write, Fl, write_write]
  | ok mb1 =>
    rw [el] at Rl Fl
    simp only [SFits] at Fl
    have hr := fun t => ih r (by omega) hc' (g1.put e .nil) (mb1.write t) (sin_in Il _).at_ (by rw [fits_write]; exact Fl)
    rcases op_lookup w with ⟨h1, h2⟩ | ⟨ow, t, h1, h2, h3⟩
    · have hw := True.intro
      by_cases w1 : w = c!"not like"
      · subst w1
        have hb : binText c!"not like" = some c!" NOT LIKE " := by decide
        obtain ⟨⟨g2, K2, Rr⟩, Fr⟩ := hr c!" NOT LIKE "
        have Ir := (sin_in Il .nil).keep K2
        cases er : svisit (senv p Z.G (!S.dis)) S.node r (mb1.write c!" NOT LIKE ") with
        | panic =>
          rw [er] at Rr Fr
          refine ⟨⟨g, I.keeps, ?_⟩, ?_⟩
          · gorun [sLocals, sVisitAt, safter_norm, safter_ret, safter_panic, endSwitch_norm, endSwitch_ret, endSwitch_panic, sp_mb, sp_node, sp_s, sp_errors, sp_miniquery, sp_xstrings, sp_strings, sp_sql, sin_at (g0 := g0) (m := m) (e := e), sin_m (Z := Z) (g0 := g0) (m := m) (e := e), sin_e (Z := Z) (g0 := g0) (m := m) (e := e), sin_pute (Z := Z) (g0 := g0) (m := m) (e := e), sin_in, fits_put, fits_write, fits_join, hf, hz, I, write_write, ss_WriteString (Z := Z), sl_WriteString (Z := Z), same_sErr, svisit, sqOut, SRes.also, SRes.andThen, execSwitch, execFrom, anySame, scase_compare, sq_LeftCmp, sq_OpCmp, sq_RightCmp, ho', hm, hb, sg_OpMap, fl, h2, vc_op, vc_found, sBin, Rl, el, sg_NotLike, sg_And, sg_Or, ss_Pad (Z := Z), sl_Pad (Z := Z), sg_Upper, sl_Upper, ss_WriteOp (Z := Z), sg_Errorf, sl_Errorf, sErr_unexpectedOp, hw, up1, up2, up3, Fl, Il, Rr, er]
          · simp [svisit, sBin, hm, hb, el, SRes.also, SRes.andThen, SFits, fits_write, Fl, write_write, er]
        | err e2 mb2 =>
          rw [er] at Rr Fr
          simp only [SFits] at Fr
          refine ⟨⟨g2.put e (sErrVal e2), skeeps_put Ir.keeps Ir.e0 _, ?_⟩, ?_⟩
          · gorun [sLocals, sVisitAt, safter_norm, safter_ret, safter_panic, endSwitch_norm, endSwitch_ret, endSwitch_panic, sp_mb, sp_node, sp_s, sp_errors, sp_miniquery, sp_xstrings, sp_strings, sp_sql, sin_at (g0 := g0) (m := m) (e := e), sin_m (Z := Z) (g0 := g0) (m := m) (e := e), sin_e (Z := Z) (g0 := g0) (m := m) (e := e), sin_pute (Z := Z) (g0 := g0) (m := m) (e := e), sin_in, fits_put, fits_write, fits_join, hf, hz, I, write_write, ss_WriteString (Z := Z), sl_WriteString (Z := Z), same_sErr, svisit, sqOut, SRes.also, SRes.andThen, execSwitch, execFrom, anySame, scase_compare, sq_LeftCmp, sq_OpCmp, sq_RightCmp, ho', hm, hb, sg_OpMap, fl, h2, vc_op, vc_found, sBin, Rl, el, sg_NotLike, sg_And, sg_Or, ss_Pad (Z := Z), sl_Pad (Z := Z), sg_Upper, sl_Upper, ss_WriteOp (Z := Z), sg_Errorf, sl_Errorf, sErr_unexpectedOp, hw, up1, up2, up3, Fl, Il, Rr, er, Fr, Ir]
          · simp [svisit, sBin, hm, hb, el, SRes.also, SRes.andThen, SFits, fits_write, Fl, write_write, er, Fr]
        | ok mb2 =>
          rw [er] at Rr Fr
          simp only [SFits] at Fr
          refine ⟨⟨g2.put e .nil, skeeps_put Ir.keeps Ir.e0 _, ?_⟩, ?_⟩
          · gorun [sLocals, sVisitAt, safter_norm, safter_ret, safter_panic, endSwitch_norm, endSwitch_ret, endSwitch_panic, sp_mb, sp_node, sp_s, sp_errors, sp_miniquery, sp_xstrings, sp_strings, sp_sql, sin_at (g0 := g0) (m := m) (e := e), sin_m (Z := Z) (g0 := g0) (m := m) (e := e), sin_e (Z := Z) (g0 := g0) (m := m) (e := e), sin_pute (Z := Z) (g0 := g0) (m := m) (e := e), sin_in, fits_put, fits_write, fits_join, hf, hz, I, write_write, ss_WriteString (Z := Z), sl_WriteString (Z := Z), same_sErr, svisit, sqOut, SRes.also, SRes.andThen, execSwitch, execFrom, anySame, scase_compare, sq_LeftCmp, sq_OpCmp, sq_RightCmp, ho', hm, hb, sg_OpMap, fl, h2, vc_op, vc_found, sBin, Rl, el, sg_NotLike, sg_And, sg_Or, ss_Pad (Z := Z), sl_Pad (Z := Z), sg_Upper, sl_Upper, ss_WriteOp (Z := Z), sg_Errorf, sl_Errorf, sErr_unexpectedOp, hw, up1, up2, up3, Fl, Il, Rr, er, Fr, Ir]
          · simp [svisit, sBin, hm, hb, el, SRes.also, SRes.andThen, SFits, fits_write, Fl, write_write, er, Fr]
      ·
        by_cases w2 : w = c!"and"
        · subst w2
          have hb : binText c!"and" = some c!" AND " := by decide
          obtain ⟨⟨g2, K2, Rr⟩, Fr⟩ := hr c!" AND "
          have Ir := (sin_in Il .nil).keep K2
          cases er : svisit (senv p Z.G (!S.dis)) S.node r (mb1.write c!" AND ") with
          | panic =>
            rw [er] at Rr Fr
            refine ⟨⟨g, I.keeps, ?_⟩, ?_⟩
            · gorun [sLocals, sVisitAt, safter_norm, safter_ret, safter_panic, endSwitch_norm, endSwitch_ret, endSwitch_panic, sp_mb, sp_node, sp_s, sp_errors, sp_miniquery, sp_xstrings, sp_strings, sp_sql, sin_at (g0 := g0) (m := m) (e := e), sin_m (Z := Z) (g0 := g0) (m := m) (e := e), sin_e (Z := Z) (g0 := g0) (m := m) (e := e), sin_pute (Z := Z) (g0 := g0) (m := m) (e := e), sin_in, fits_put, fits_write, fits_join, hf, hz, I, write_write, ss_WriteString (Z := Z), sl_WriteString (Z := Z), same_sErr, svisit, sqOut, SRes.also, SRes.andThen, execSwitch, execFrom, anySame, scase_compare, sq_LeftCmp, sq_OpCmp, sq_RightCmp, ho', hm, hb, sg_OpMap, fl, h2, vc_op, vc_found, sBin, Rl, el, sg_NotLike, sg_And, sg_Or, ss_Pad (Z := Z), sl_Pad (Z := Z), sg_Upper, sl_Upper, ss_WriteOp (Z := Z), sg_Errorf, sl_Errorf, sErr_unexpectedOp, hw, up1, up2, up3, Fl, Il, Rr, er]
            · simp [svisit, sBin, hm, hb, el, SRes.also, SRes.andThen, SFits, fits_write, Fl, write_write, er]
          | err e2 mb2 =>
            rw [er] at Rr Fr
            simp only [SFits] at Fr
            refine ⟨⟨g2.put e (sErrVal e2), skeeps_put Ir.keeps Ir.e0 _, ?_⟩, ?_⟩
            · gorun [sLocals, sVisitAt, safter_norm, safter_ret, safter_panic, endSwitch_norm, endSwitch_ret, endSwitch_panic, sp_mb, sp_node, sp_s, sp_errors, sp_miniquery, sp_xstrings, sp_strings, sp_sql, sin_at (g0 := g0) (m := m) (e := e), sin_m (Z := Z) (g0 := g0) (m := m) (e := e), sin_e (Z := Z) (g0 := g0) (m := m) (e := e), sin_pute (Z := Z) (g0 := g0) (m := m) (e := e), sin_in, fits_put, fits_write, fits_join, hf, hz, I, write_write, ss_WriteString (Z := Z), sl_WriteString (Z := Z), same_sErr, svisit, sqOut, SRes.also, SRes.andThen, execSwitch, execFrom, anySame, scase_compare, sq_LeftCmp, sq_OpCmp, sq_RightCmp, ho', hm, hb, sg_OpMap, fl, h2, vc_op, vc_found, sBin, Rl, el, sg_NotLike, sg_And, sg_Or, ss_Pad (Z := Z), sl_Pad (Z := Z), sg_Upper, sl_Upper, ss_WriteOp (Z := Z), sg_Errorf, sl_Errorf, sErr_unexpectedOp, hw, up1, up2, up3, Fl, Il, Rr, er, Fr, Ir]
            · simp [svisit, sBin, hm, hb, el, SRes.also, SRes.andThen, SFits, fits_write, Fl, write_write, er, Fr]
          | ok mb2 =>
            rw [er] at Rr Fr
            simp only [SFits] at Fr
            refine ⟨⟨g2.put e .nil, skeeps_put Ir.keeps Ir.e0 _, ?_⟩, ?_⟩
            · gorun [sLocals, sVisitAt, safter_norm, safter_ret, safter_panic, endSwitch_norm, endSwitch_ret, endSwitch_panic, sp_mb, sp_node, sp_s, sp_errors, sp_miniquery, sp_xstrings, sp_strings, sp_sql, sin_at (g0 := g0) (m := m) (e := e), sin_m (Z := Z) (g0 := g0) (m := m) (e := e), sin_e (Z := Z) (g0 := g0) (m := m) (e := e), sin_pute (Z := Z) (g0 := g0) (m := m) (e := e), sin_in, fits_put, fits_write, fits_join, hf, hz, I, write_write, ss_WriteString (Z := Z), sl_WriteString (Z := Z), same_sErr, svisit, sqOut, SRes.also, SRes.andThen, execSwitch, execFrom, anySame, scase_compare, sq_LeftCmp, sq_OpCmp, sq_RightCmp, ho', hm, hb, sg_OpMap, fl, h2, vc_op, vc_found, sBin, Rl, el, sg_NotLike, sg_And, sg_Or, ss_Pad (Z := Z), sl_Pad (Z := Z), sg_Upper, sl_Upper, ss_WriteOp (Z := Z), sg_Errorf, sl_Errorf, sErr_unexpectedOp, hw, up1, up2, up3, Fl, Il, Rr, er, Fr, Ir]
            · simp [svisit, sBin, hm, hb, el, SRes.also, SRes.andThen, SFits, fits_write, Fl, write_write, er, Fr]
        ·
          by_cases w3 : w = c!"or"
          · subst w3
            have hb : binText c!"or" = some c!" OR " := by decide
            obtain ⟨⟨g2, K2, Rr⟩, Fr⟩ := hr c!" OR "
            have Ir := (sin_in Il .nil).keep K2
            cases er : svisit (senv p Z.G (!S.dis)) S.node r (mb1.write c!" OR ") with
            | panic =>
              rw [er] at Rr Fr
              refine ⟨⟨g, I.keeps, ?_⟩, ?_⟩
              · gorun [sLocals, sVisitAt, safter_norm, safter_ret, safter_panic, endSwitch_norm, endSwitch_ret, endSwitch_panic, sp_mb, sp_node, sp_s, sp_errors, sp_miniquery, sp_xstrings, sp_strings, sp_sql, sin_at (g0 := g0) (m := m) (e := e), sin_m (Z := Z) (g0 := g0) (m := m) (e := e), sin_e (Z := Z) (g0 := g0) (m := m) (e := e), sin_pute (Z := Z) (g0 := g0) (m := m) (e := e), sin_in, fits_put, fits_write, fits_join, hf, hz, I, write_write, ss_WriteString (Z := Z), sl_WriteString (Z := Z), same_sErr, svisit, sqOut, SRes.also, SRes.andThen, execSwitch, execFrom, anySame, scase_compare, sq_LeftCmp, sq_OpCmp, sq_RightCmp, ho', hm, hb, sg_OpMap, fl, h2, vc_op, vc_found, sBin, Rl, el, sg_NotLike, sg_And, sg_Or, ss_Pad (Z := Z), sl_Pad (Z := Z), sg_Upper, sl_Upper, ss_WriteOp (Z := Z), sg_Errorf, sl_Errorf, sErr_unexpectedOp, hw, up1, up2, up3, Fl, Il, Rr, er]
              · simp [svisit, sBin, hm, hb, el, SRes.also, SRes.andThen, SFits, fits_write, Fl, write_write, er]
            | err e2 mb2 =>
              rw [er] at Rr Fr
              simp only [SFits] at Fr
              refine ⟨⟨g2.put e (sErrVal e2), skeeps_put Ir.keeps Ir.e0 _, ?_⟩, ?_⟩
              · gorun [sLocals, sVisitAt, safter_norm, safter_ret, safter_panic, endSwitch_norm, endSwitch_ret, endSwitch_panic, sp_mb, sp_node, sp_s, sp_errors, sp_miniquery, sp_xstrings, sp_strings, sp_sql, sin_at (g0 := g0) (m := m) (e := e), sin_m (Z := Z) (g0 := g0) (m := m) (e := e), sin_e (Z := Z) (g0 := g0) (m := m) (e := e), sin_pute (Z := Z) (g0 := g0) (m := m) (e := e), sin_in, fits_put, fits_write, fits_join, hf, hz, I, write_write, ss_WriteString (Z := Z), sl_WriteString (Z := Z), same_sErr, svisit, sqOut, SRes.also, SRes.andThen, execSwitch, execFrom, anySame, scase_compare, sq_LeftCmp, sq_OpCmp, sq_RightCmp, ho', hm, hb, sg_OpMap, fl, h2, vc_op, vc_found, sBin, Rl, el, sg_NotLike, sg_And, sg_Or, ss_Pad (Z := Z), sl_Pad (Z := Z), sg_Upper, sl_Upper, ss_WriteOp (Z := Z), sg_Errorf, sl_Errorf, sErr_unexpectedOp, hw, up1, up2, up3, Fl, Il, Rr, er, Fr, Ir]
              · simp [svisit, sBin, hm, hb, el, SRes.also, SRes.andThen, SFits, fits_write, Fl, write_write, er, Fr]
            | ok mb2 =>
              rw [er] at Rr Fr
              simp only [SFits] at Fr
              refine ⟨⟨g2.put e .nil, skeeps_put Ir.keeps Ir.e0 _, ?_⟩, ?_⟩
              · gorun [sLocals, sVisitAt, safter_norm, safter_ret, safter_panic, endSwitch_norm, endSwitch_ret, endSwitch_panic, sp_mb, sp_node, sp_s, sp_errors, sp_miniquery, sp_xstrings, sp_strings, sp_sql, sin_at (g0 := g0) (m := m) (e := e), sin_m (Z := Z) (g0 := g0) (m := m) (e := e), sin_e (Z := Z) (g0 := g0) (m := m) (e := e), sin_pute (Z := Z) (g0 := g0) (m := m) (e := e), sin_in, fits_put, fits_write, fits_join, hf, hz, I, write_write, ss_WriteString (Z := Z), sl_WriteString (Z := Z), same_sErr, svisit, sqOut, SRes.also, SRes.andThen, execSwitch, execFrom, anySame, scase_compare, sq_LeftCmp, sq_OpCmp, sq_RightCmp, ho', hm, hb, sg_OpMap, fl, h2, vc_op, vc_found, sBin, Rl, el, sg_NotLike, sg_And, sg_Or, ss_Pad (Z := Z), sl_Pad (Z := Z), sg_Upper, sl_Upper, ss_WriteOp (Z := Z), sg_Errorf, sl_Errorf, sErr_unexpectedOp, hw, up1, up2, up3, Fl, Il, Rr, er, Fr, Ir]
              · simp [svisit, sBin, hm, hb, el, SRes.also, SRes.andThen, SFits, fits_write, Fl, write_write, er, Fr]
          ·
            have hb : binText w = none := by simp [binText, h1, w1, w2, w3]
            refine ⟨⟨g1.put e .nil, skeeps_put Il.keeps Il.e0 _, ?_⟩, ?_⟩
            · gorun [sLocals, sVisitAt, safter_norm, safter_ret, safter_panic, endSwitch_norm, endSwitch_ret, endSwitch_panic, sp_mb, sp_node, sp_s, sp_errors, sp_miniquery, sp_xstrings, sp_strings, sp_sql, sin_at (g0 := g0) (m := m) (e := e), sin_m (Z := Z) (g0 := g0) (m := m) (e := e), sin_e (Z := Z) (g0 := g0) (m := m) (e := e), sin_pute (Z := Z) (g0 := g0) (m := m) (e := e), sin_in, fits_put, fits_write, fits_join, hf, hz, I, write_write, ss_WriteString (Z := Z), sl_WriteString (Z := Z), same_sErr, svisit, sqOut, SRes.also, SRes.andThen, execSwitch, execFrom, anySame, scase_compare, sq_LeftCmp, sq_OpCmp, sq_RightCmp, ho', hm, hb, sg_OpMap, fl, h2, vc_op, vc_found, sBin, Rl, el, sg_NotLike, sg_And, sg_Or, ss_Pad (Z := Z), sl_Pad (Z := Z), sg_Upper, sl_Upper, ss_WriteOp (Z := Z), sg_Errorf, sl_Errorf, sErr_unexpectedOp, hw, up1, up2, up3, Fl, Il, w1, w2, w3]
            · simp [svisit, sBin, hm, hb, el, SRes.also, SRes.andThen, SFits, fits_write, Fl, write_write]
    · have hw := fun n g mb A hf => sl_WriteOp (Q := Q) (N := N) (D := D) (p := p) (k := k) (n := n) (g := g) (mb := mb) (S := S) (Z := Z) A hf ow t h3
      have hb : binText w = some t := by simp [binText, h1]
      obtain ⟨⟨g2, K2, Rr⟩, Fr⟩ := hr t
      have Ir := (sin_in Il .nil).keep K2
      cases er : svisit (senv p Z.G (!S.dis)) S.node r (mb1.write t) with
      | panic =>
        rw [er] at Rr Fr
        refine ⟨⟨g, I.keeps, ?_⟩, ?_⟩
        · gorun [sLocals, sVisitAt, safter_norm, safter_ret, safter_panic, endSwitch_norm, endSwitch_ret, endSwitch_panic, sp_mb, sp_node, sp_s, sp_errors, sp_miniquery, sp_xstrings, sp_strings, sp_sql, sin_at (g0 := g0) (m := m) (e := e), sin_m (Z := Z) (g0 := g0) (m := m) (e := e), sin_e (Z := Z) (g0 := g0) (m := m) (e := e), sin_pute (Z := Z) (g0 := g0) (m := m) (e := e), sin_in, fits_put, fits_write, fits_join, hf, hz, I, write_write, ss_WriteString (Z := Z), sl_WriteString (Z := Z), same_sErr, svisit, sqOut, SRes.also, SRes.andThen, execSwitch, execFrom, anySame, scase_compare, sq_LeftCmp, sq_OpCmp, sq_RightCmp, ho', hm, hb, sg_OpMap, fl, h2, vc_op, vc_found, sBin, Rl, el, sg_NotLike, sg_And, sg_Or, ss_Pad (Z := Z), sl_Pad (Z := Z), sg_Upper, sl_Upper, ss_WriteOp (Z := Z), sg_Errorf, sl_Errorf, sErr_unexpectedOp, hw, up1, up2, up3, Fl, Il, Rr, er]
        · simp [svisit, sBin, hm, hb, el, SRes.also, SRes.andThen, SFits, fits_write, Fl, write_write, er]
      | err e2 mb2 =>
        rw [er] at Rr Fr
        simp only [SFits] at Fr
        refine ⟨⟨g2.put e (sErrVal e2), skeeps_put Ir.keeps Ir.e0 _, ?_⟩, ?_⟩
        · gorun [sLocals, sVisitAt, safter_norm, safter_ret, safter_panic, endSwitch_norm, endSwitch_ret, endSwitch_panic, sp_mb, sp_node, sp_s, sp_errors, sp_miniquery, sp_xstrings, sp_strings, sp_sql, sin_at (g0 := g0) (m := m) (e := e), sin_m (Z := Z) (g0 := g0) (m := m) (e := e), sin_e (Z := Z) (g0 := g0) (m := m) (e := e), sin_pute (Z := Z) (g0 := g0) (m := m) (e := e), sin_in, fits_put, fits_write, fits_join, hf, hz, I, write_write, ss_WriteString (Z := Z), sl_WriteString (Z := Z), same_sErr, svisit, sqOut, SRes.also, SRes.andThen, execSwitch, execFrom, anySame, scase_compare, sq_LeftCmp, sq_OpCmp, sq_RightCmp, ho', hm, hb, sg_OpMap, fl, h2, vc_op, vc_found, sBin, Rl, el, sg_NotLike, sg_And, sg_Or, ss_Pad (Z := Z), sl_Pad (Z := Z), sg_Upper, sl_Upper, ss_WriteOp (Z := Z), sg_Errorf, sl_Errorf, sErr_unexpectedOp, hw, up1, up2, up3, Fl, Il, Rr, er, Fr, Ir]
        · simp [svisit, sBin, hm, hb, el, SRes.also, SRes.andThen, SFits, fits_write, Fl, write_write, er, Fr]
      | ok mb2 =>
        rw [er] at Rr Fr
        simp only [SFits] at Fr
        refine ⟨⟨g2.put e .nil, skeeps_put Ir.keeps Ir.e0 _, ?_⟩, ?_⟩
        · gorun [sLocals, sVisitAt, safter_norm, safter_ret, safter_panic, endSwitch_norm, endSwitch_ret, endSwitch_panic, sp_mb, sp_node, sp_s, sp_errors, sp_miniquery, sp_xstrings, sp_strings, sp_sql, sin_at (g0 := g0) (m := m) (e := e), sin_m (Z := Z) (g0 := g0) (m := m) (e := e), sin_e (Z := Z) (g0 := g0) (m := m) (e := e), sin_pute (Z := Z) (g0 := g0) (m := m) (e := e), sin_in, fits_put, fits_write, fits_join, hf, hz, I, write_write, ss_WriteString (Z := Z), sl_WriteString (Z := Z), same_sErr, svisit, sqOut, SRes.also, SRes.andThen, execSwitch, execFrom, anySame, scase_compare, sq_LeftCmp, sq_OpCmp, sq_RightCmp, ho', hm, hb, sg_OpMap, fl, h2, vc_op, vc_found, sBin, Rl, el, sg_NotLike, sg_And, sg_Or, ss_Pad (Z := Z), sl_Pad (Z := Z), sg_Upper, sl_Upper, ss_WriteOp (Z := Z), sg_Errorf, sl_Errorf, sErr_unexpectedOp, hw, up1, up2, up3, Fl, Il, Rr, er, Fr, Ir]
        · simp [svisit, sBin, hm, hb, el, SRes.also, SRes.andThen, SFits, fits_write, Fl, write_write, er, Fr]

set_option maxHeartbeats 1000000 in
theorem sv_logic (l o r) (I : SIn Z S g0 m e g) (hf : Fits S mb) (hz : g.mem e = .nil) (ih : SBelow Q N D p Z S k (n + 2) kk) (hl : lvl (.logic l o r) ≤ kk) (hc : Complete l) (hc' : Complete r) (hn : o ≠ .nil) :
    SDone S g0 (sVisitAt (sqCall Q N D p k (n + 2)) 9 scase_compare (sLocals S m e (.logic l o r)) (sHeap S mb g)) (svisit (senv p Z.G (!S.dis)) S.node (.logic l o r) mb) := by
  rw [lvl] at hl
  have ho' := fun h => sq_Oper (h := h) hn
  have hm := operation_some hn
  generalize (operation o).getD [] = w at ho' hm
  have fl := fun s => fget_lookup (fun kv : Str × Str => Val.lib kv.2) s opPairs
  obtain ⟨⟨g1, K1, Rl⟩, Fl⟩ := ih l (by omega) hc g mb I.at_ hf
  have Il := I.keep K1
  have up1 : c!"not like".map Char.toUpper = c!"NOT LIKE" := by decide
  have up2 : c!"and".map Char.toUpper = c!"AND" := by decide
  have up3 : c!"or".map Char.toUpper = c!"OR" := by decide
  cases el : svisit (senv p Z.G (!S.dis)) S.node l mb with
  | panic =>
    rw [el] at Rl
    refine ⟨⟨g, I.keeps, ?_⟩, ?_⟩
    · gorun [sLocals, sVisitAt, safter_norm, safter_ret, safter_panic, endSwitch_norm, endSwitch_ret, endSwitch_panic, sp_mb, sp_node, sp_s, sp_errors, sp_miniquery, sp_xstrings, sp_strings, sp_sql, sin_at (g0 := g0) (m := m) (e := e), sin_m (Z := Z) (g0 := g0) (m := m) (e := e), sin_e (Z := Z) (g0 := g0) (m := m) (e := e), sin_pute (Z := Z) (g0 := g0) (m := m) (e := e), sin_in, fits_put, fits_write, fits_join, hf, hz, I, write_write, ss_WriteString (Z := Z), sl_WriteString (Z := Z), same_sErr, svisit, sqOut, SRes.also, SRes.andThen, execSwitch, execFrom, anySame, scase_compare, sq_LeftLogic, Rl, el, sBin]
    · simp [svisit, sBin, el, SFits]
  | err e1 mb1 =>
    rw [el] at Rl Fl
    simp only [SFits] at Fl
    have key : ∃ t, binText w = t := ⟨_, rfl⟩
    rcases op_lookup w with ⟨h1, h2⟩ | ⟨ow, t, h1, h2, h3⟩
    · have hw := True.intro
      by_cases w1 : w = c!"not like"
      · subst w1
        have hb : binText c!"not like" = some c!" NOT LIKE " := by decide
        refine ⟨⟨g1.put e (sErrVal e1), skeeps_put Il.keeps Il.e0 _, ?_⟩, ?_⟩
        · gorun [sLocals, sVisitAt, safter_norm, safter_ret, safter_panic, endSwitch_norm, endSwitch_ret, endSwitch_panic, sp_mb, sp_node, sp_s, sp_errors, sp_miniquery, sp_xstrings, sp_strings, sp_sql, sin_at (g0 := g0) (m := m) (e := e), sin_m (Z := Z) (g0 := g0) (m := m) (e := e), sin_e (Z := Z) (g0 := g0) (m := m) (e := e), sin_pute (Z := Z) (g0 := g0) (m := m) (e := e), sin_in, fits_put, fits_write, fits_join, hf, hz, I, write_write, ss_WriteString (Z := Z), sl_WriteString (Z := Z), same_sErr, svisit, sqOut, SRes.also, SRes.andThen, execSwitch, execFrom, anySame, scase_compare, sq_LeftLogic, sq_OpLogic, sq_RightLogic, ho', hm, hb, sg_OpMap, fl, h2, vc_op, vc_found, sBin, Rl, el, sg_NotLike, sg_And, sg_Or, ss_Pad (Z := Z), sl_Pad (Z := Z), sg_Upper, sl_Upper, ss_WriteOp (Z := Z), sg_Errorf, sl_Errorf, sErr_unexpectedOp, hw, up1, up2, up3, Fl, Il]
        · simp [svisit, sBin, hm, hb, el, SRes.also, SRes.andThen, SFits, fits_write, Fl, write_write]
      · by_cases w2 : w = c!"and"
        · subst w2
          have hb : binText c!"and" = some c!" AND " := by decide
          refine ⟨⟨g1.put e (sErrVal e1), skeeps_put Il.keeps Il.e0 _, ?_⟩, ?_⟩
          · gorun [sLocals, sVisitAt, safter_norm, safter_ret, safter_panic, endSwitch_norm, endSwitch_ret, endSwitch_panic, sp_mb, sp_node, sp_s, sp_errors, sp_miniquery, sp_xstrings, sp_strings, sp_sql, sin_at (g0 := g0) (m := m) (e := e), sin_m (Z := Z) (g0 := g0) (m := m) (e := e), sin_e (Z := Z) (g0 := g0) (m := m) (e := e), sin_pute (Z := Z) (g0 := g0) (m := m) (e := e), sin_in, fits_put, fits_write, fits_join, hf, hz, I, write_write, ss_WriteString (Z := Z), sl_WriteString (Z := Z), same_sErr, svisit, sqOut, SRes.also, SRes.andThen, execSwitch, execFrom, anySame, scase_compare, sq_LeftLogic, sq_OpLogic, sq_RightLogic, ho', hm, hb, sg_OpMap, fl, h2, vc_op, vc_found, sBin, Rl, el, sg_NotLike, sg_And, sg_Or, ss_Pad (Z := Z), sl_Pad (Z := Z), sg_Upper, sl_Upper, ss_WriteOp (Z := Z), sg_Errorf, sl_Errorf, sErr_unexpectedOp, hw, up1, up2, up3, Fl, Il]
          · simp [svisit, sBin, hm, hb, el, SRes.also, SRes.andThen, SFits, fits_write, Fl, write_write]
        · by_cases w3 : w = c!"or"
          · subst w3
            have hb : binText c!"or" = some c!" OR " := by decide
            refine ⟨⟨g1.put e (sErrVal e1), skeeps_put Il.keeps Il.e0 _, ?_⟩, ?_⟩
            · gorun [sLocals, sVisitAt, safter_norm, safter_ret, safter_panic, endSwitch_norm, endSwitch_ret, endSwitch_panic, sp_mb, sp_node, sp_s, sp_errors, sp_miniquery, sp_xstrings, sp_strings, sp_sql, sin_at (g0 := g0) (m := m) (e := e), sin_m (Z := Z) (g0 := g0) (m := m) (e := e), sin_e (Z := Z) (g0 := g0) (m := m) (e := e), sin_pute (Z := Z) (g0 := g0) (m := m) (e := e), sin_in, fits_put, fits_write, fits_join, hf, hz, I, write_write, ss_WriteString (Z := Z), sl_WriteString (Z := Z), same_sErr, svisit, sqOut, SRes.also, SRes.andThen, execSwitch, execFrom, anySame, scase_compare, sq_LeftLogic, sq_OpLogic, sq_RightLogic, ho', hm, hb, sg_OpMap, fl, h2, vc_op, vc_found, sBin, Rl, el, sg_NotLike, sg_And, sg_Or, ss_Pad (Z := Z), sl_Pad (Z := Z), sg_Upper, sl_Upper, ss_WriteOp (Z := Z), sg_Errorf, sl_Errorf, sErr_unexpectedOp, hw, up1, up2, up3, Fl, Il]
            · simp [svisit, sBin, hm, hb, el, SRes.also, SRes.andThen, SFits, fits_write, Fl, write_write]
          · have hb : binText w = none := by simp [binText, h1, w1, w2, w3]
            refine ⟨⟨g1.put e (sErrVal e1), skeeps_put Il.keeps Il.e0 _, ?_⟩, ?_⟩
            · gorun [sLocals, sVisitAt, safter_norm, safter_ret, safter_panic, endSwitch_norm, endSwitch_ret, endSwitch_panic, sp_mb, sp_node, sp_s, sp_errors, sp_miniquery, sp_xstrings, sp_strings, sp_sql, sin_at (g0 := g0) (m := m) (e := e), sin_m (Z := Z) (g0 := g0) (m := m) (e := e), sin_e (Z := Z) (g0 := g0) (m := m) (e := e), sin_pute (Z := Z) (g0 := g0) (m := m) (e := e), sin_in, fits_put, fits_write, fits_join, hf, hz, I, write_write, ss_WriteString (Z := Z), sl_WriteString (Z := Z), same_sErr, svisit, sqOut, SRes.also, SRes.andThen, execSwitch, execFrom, anySame, scase_compare, sq_LeftLogic, sq_OpLogic, sq_RightLogic, ho', hm, hb, sg_OpMap, fl, h2, vc_op, vc_found, sBin, Rl, el, sg_NotLike, sg_And, sg_Or, ss_Pad (Z := Z), sl_Pad (Z := Z), sg_Upper, sl_Upper, ss_WriteOp (Z := Z), sg_Errorf, sl_Errorf, sErr_unexpectedOp, hw, up1, up2, up3, Fl, Il, w1, w2, w3]
            · simp [svisit, sBin, hm, hb, el, SRes.also, SRes.andThen, SFits, fits_write, Fl, write_write]
    · have hw := fun n g mb A hf => sl_WriteOp (Q := Q) (N := N) (D := D) (p := p) (k := k) (n := n) (g := g) (mb := mb) (S := S) (Z := Z) A hf ow t h3
      have hb : binText w = some t := by simp [binText, h1]
      refine ⟨⟨g1.put e (sErrVal e1), skeeps_put Il.keeps Il.e0 _, ?_⟩, ?_⟩
      · gorun [sLocals, sVisitAt, safter_norm, safter_ret, safter_panic, endSwitch_norm, endSwitch_ret, endSwitch_panic, sp_mb, sp_node, sp_s, sp_errors, sp_miniquery, sp_xstrings, sp_strings, sp_sql, sin_at (g0 := g0) (m := m) (e := e), sin_m (Z := Z) (g0 := g0) (m := m) (e := e), sin_e (Z := Z) (g0 := g0) (m := m) (e := e), sin_pute (Z := Z) (g0 := g0) (m := m) (e := e), sin_in, fits_put, fits_write, fits_join, hf, hz, I, write_write, ss_WriteString (Z := Z), sl_WriteString (Z := Z), same_sErr, svisit, sqOut, SRes.also, SRes.andThen, execSwitch, execFrom, anySame, scase_compare, sq_LeftLogic, sq_OpLogic, sq_RightLogic, ho', hm, hb, sg_OpMap, fl, h2, vc_op, vc_found, sBin, Rl, el, sg_NotLike, sg_And, sg_Or, ss_Pad (Z := Z), sl_Pad (Z := Z), sg_Upper, sl_Upper, ss_WriteOp (Z := Z), sg_Errorf, sl_Errorf, sErr_unexpectedOp, hw, up1, up2, up3, Fl, Il]
      · simp [svisit, sBin, hm, hb, el, SRes.also, SRes.andThen, SFits, fits_write, Fl, write_write]
  | ok mb1 =>
    rw [el] at Rl Fl
    simp only [SFits] at Fl
    have hr := fun t => ih r (by omega) hc' (g1.put e .nil) (mb1.write t) (sin_in Il _).at_ (by rw [fits_write]; exact Fl)
    rcases op_lookup w with ⟨h1, h2⟩ | ⟨ow, t, h1, h2, h3⟩
    · have hw := True.intro
      by_cases w1 : w = c!"not like"
      · subst w1
        have hb : binText c!"not like" = some c!" NOT LIKE " := by decide
        obtain ⟨⟨g2, K2, Rr⟩, Fr⟩ := hr c!" NOT LIKE "
        have Ir := (sin_in Il .nil).keep K2
        cases er : svisit (senv p Z.G (!S.dis)) S.node r (mb1.write c!" NOT LIKE ") with
        | panic =>
          rw [er] at Rr Fr
          refine ⟨⟨g, I.keeps, ?_⟩, ?_⟩
          · gorun [sLocals, sVisitAt, safter_norm, safter_ret, safter_panic, endSwitch_norm, endSwitch_ret, endSwitch_panic, sp_mb, sp_node, sp_s, sp_errors, sp_miniquery, sp_xstrings, sp_strings, sp_sql, sin_at (g0 := g0) (m := m) (e := e), sin_m (Z := Z) (g0 := g0) (m := m) (e := e), sin_e (Z := Z) (g0 := g0) (m := m) (e := e), sin_pute (Z := Z) (g0 := g0) (m := m) (e := e), sin_in, fits_put, fits_write, fits_join, hf, hz, I, write_write, ss_WriteString (Z := Z), sl_WriteString (Z := Z), same_sErr, svisit, sqOut, SRes.also, SRes.andThen, execSwitch, execFrom, anySame, scase_compare, sq_LeftLogic, sq_OpLogic, sq_RightLogic, ho', hm, hb, sg_OpMap, fl, h2, vc_op, vc_found, sBin, Rl, el, sg_NotLike, sg_And, sg_Or, ss_Pad (Z := Z), sl_Pad (Z := Z), sg_Upper, sl_Upper, ss_WriteOp (Z := Z), sg_Errorf, sl_Errorf, sErr_unexpectedOp, hw, up1, up2, up3, Fl, Il, Rr, er]
          · simp [svisit, sBin, hm, hb, el, SRes.also, SRes.andThen, SFits, fits_write, Fl, write_write, er]
        | err e2 mb2 =>
          rw [er] at Rr Fr
          simp only [SFits] at Fr
          refine ⟨⟨g2.put e (sErrVal e2), skeeps_put Ir.keeps Ir.e0 _, ?_⟩, ?_⟩
          · gorun [sLocals, sVisitAt, safter_norm, safter_ret, safter_panic, endSwitch_norm, endSwitch_ret, endSwitch_panic, sp_mb, sp_node, sp_s, sp_errors, sp_miniquery, sp_xstrings, sp_strings, sp_sql, sin_at (g0 := g0) (m := m) (e := e), sin_m (Z := Z) (g0 := g0) (m := m) (e := e), sin_e (Z := Z) (g0 := g0) (m := m) (e := e), sin_pute (Z := Z) (g0 := g0) (m := m) (e := e), sin_in, fits_put, fits_write, fits_join, hf, hz, I, write_write, ss_WriteString (Z := Z), sl_WriteString (Z := Z), same_sErr, svisit, sqOut, SRes.also, SRes.andThen, execSwitch, execFrom, anySame, scase_compare, sq_LeftLogic, sq_OpLogic, sq_RightLogic, ho', hm, hb, sg_OpMap, fl, h2, vc_op, vc_found, sBin, Rl, el, sg_NotLike, sg_And, sg_Or, ss_Pad (Z := Z), sl_Pad (Z := Z), sg_Upper, sl_Upper, ss_WriteOp (Z := Z), sg_Errorf, sl_Errorf, sErr_unexpectedOp, hw, up1, up2, up3, Fl, Il, Rr, er, Fr, Ir]
          · simp [svisit, sBin, hm, hb, el, SRes.also, SRes.andThen, SFits, fits_write, Fl, write_write, er, Fr]
        | ok mb2 =>
          rw [er] at Rr Fr
          simp only [SFits] at Fr
          refine ⟨⟨g2.put e .nil, skeeps_put Ir.keeps Ir.e0 _, ?_⟩, ?_⟩
          · gorun [sLocals, sVisitAt, safter_norm, safter_ret, safter_panic, endSwitch_norm, endSwitch_ret, endSwitch_panic, sp_mb, sp_node, sp_s, sp_errors, sp_miniquery, sp_xstrings, sp_strings, sp_sql, sin_at (g0 := g0) (m := m) (e := e), sin_m (Z := Z) (g0 := g0) (m := m) (e := e), sin_e (Z := Z) (g0 := g0) (m := m) (e := e), sin_pute (Z := Z) (g0 := g0) (m := m) (e := e), sin_in, fits_put, fits_write, fits_join, hf, hz, I, write_write, ss_WriteString (Z := Z), sl_WriteString (Z := Z), same_sErr, svisit, sqOut, SRes.also, SRes.andThen, execSwitch, execFrom, anySame, scase_compare, sq_LeftLogic, sq_OpLogic, sq_RightLogic, ho', hm, hb, sg_OpMap, fl, h2, vc_op, vc_found, sBin, Rl, el, sg_NotLike, sg_And, sg_Or, ss_Pad (Z := Z), sl_Pad (Z := Z), sg_Upper, sl_Upper, ss_WriteOp (Z := Z), sg_Errorf, sl_Errorf, sErr_unexpectedOp, hw, up1, up2, up3, Fl, Il, Rr, er, Fr, Ir]
          · simp [svisit, sBin, hm, hb, el, SRes.also, SRes.andThen, SFits, fits_write, Fl, write_write, er, Fr]
      ·
        by_cases w2 : w = c!"and"
        · subst w2
          have hb : binText c!"and" = some c!" AND " := by decide
          obtain ⟨⟨g2, K2, Rr⟩, Fr⟩ := hr c!" AND "
          have Ir := (sin_in Il .nil).keep K2
          cases er : svisit (senv p Z.G (!S.dis)) S.node r (mb1.write c!" AND ") with
          | panic =>
            rw [er] at Rr Fr
            refine ⟨⟨g, I.keeps, ?_⟩, ?_⟩
            · gorun [sLocals, sVisitAt, safter_norm, safter_ret, safter_panic, endSwitch_norm, endSwitch_ret, endSwitch_panic, sp_mb, sp_node, sp_s, sp_errors, sp_miniquery, sp_xstrings, sp_strings, sp_sql, sin_at (g0 := g0) (m := m) (e := e), sin_m (Z := Z) (g0 := g0) (m := m) (e := e), sin_e (Z := Z) (g0 := g0) (m := m) (e := e), sin_pute (Z := Z) (g0 := g0) (m := m) (e := e), sin_in, fits_put, fits_write, fits_join, hf, hz, I, write_write, ss_WriteString (Z := Z), sl_WriteString (Z := Z), same_sErr, svisit, sqOut, SRes.also, SRes.andThen, execSwitch, execFrom, anySame, scase_compare, sq_LeftLogic, sq_OpLogic, sq_RightLogic, ho', hm, hb, sg_OpMap, fl, h2, vc_op, vc_found, sBin, Rl, el, sg_NotLike, sg_And, sg_Or, ss_Pad (Z := Z), sl_Pad (Z := Z), sg_Upper, sl_Upper, ss_WriteOp (Z := Z), sg_Errorf, sl_Errorf, sErr_unexpectedOp, hw, up1, up2, up3, Fl, Il, Rr, er]
            · simp [svisit, sBin, hm, hb, el, SRes.also, SRes.andThen, SFits, fits_write, Fl, write_write, er]
          | err e2 mb2 =>
            rw [er] at Rr Fr
            simp only [SFits] at Fr
            refine ⟨⟨g2.put e (sErrVal e2), skeeps_put Ir.keeps Ir.e0 _, ?_⟩, ?_⟩
            · gorun [sLocals, sVisitAt, safter_norm, safter_ret, safter_panic, endSwitch_norm, endSwitch_ret, endSwitch_panic, sp_mb, sp_node, sp_s, sp_errors, sp_miniquery, sp_xstrings, sp_strings, sp_sql, sin_at (g0 := g0) (m := m) (e := e), sin_m (Z := Z) (g0 := g0) (m := m) (e := e), sin_e (Z := Z) (g0 := g0) (m := m) (e := e), sin_pute (Z := Z) (g0 := g0) (m := m) (e := e), sin_in, fits_put, fits_write, fits_join, hf, hz, I, write_write, ss_WriteString (Z := Z), sl_WriteString (Z := Z), same_sErr, svisit, sqOut, SRes.also, SRes.andThen, execSwitch, execFrom, anySame, scase_compare, sq_LeftLogic, sq_OpLogic, sq_RightLogic, ho', hm, hb, sg_OpMap, fl, h2, vc_op, vc_found, sBin, Rl, el, sg_NotLike, sg_And, sg_Or, ss_Pad (Z := Z), sl_Pad (Z := Z), sg_Upper, sl_Upper, ss_WriteOp (Z := Z), sg_Errorf, sl_Errorf, sErr_unexpectedOp, hw, up1, up2, up3, Fl, Il, Rr, er, Fr, Ir]
            · simp [svisit, sBin, hm, hb, el, SRes.also, SRes.andThen, SFits, fits_write, Fl, write_write, er, Fr]
          | ok mb2 =>
            rw [er] at Rr Fr
            simp only [SFits] at Fr
            refine ⟨⟨g2.put e .nil, skeeps_put Ir.keeps Ir.e0 _, ?_⟩, ?_⟩
            · gorun [sLocals, sVisitAt, safter_norm, safter_ret, safter_panic, endSwitch_norm, endSwitch_ret, endSwitch_panic, sp_mb, sp_node, sp_s, sp_errors, sp_miniquery, sp_xstrings, sp_strings, sp_sql, sin_at (g0 := g0) (m := m) (e := e), sin_m (Z := Z) (g0 := g0) (m := m) (e := e), sin_e (Z := Z) (g0 := g0) (m := m) (e := e), sin_pute (Z := Z) (g0 := g0) (m := m) (e := e), sin_in, fits_put, fits_write, fits_join, hf, hz, I, write_write, ss_WriteString (Z := Z), sl_WriteString (Z := Z), same_sErr, svisit, sqOut, SRes.also, SRes.andThen, execSwitch, execFrom, anySame, scase_compare, sq_LeftLogic, sq_OpLogic, sq_RightLogic, ho', hm, hb, sg_OpMap, fl, h2, vc_op, vc_found, sBin, Rl, el, sg_NotLike, sg_And, sg_Or, ss_Pad (Z := Z), sl_Pad (Z := Z), sg_Upper, sl_Upper, ss_WriteOp (Z := Z), sg_Errorf, sl_Errorf, sErr_unexpectedOp, hw, up1, up2, up3, Fl, Il, Rr, er, Fr, Ir]
            · simp [svisit, sBin, hm, hb, el, SRes.also, SRes.andThen, SFits, fits_write, Fl, write_write, er, Fr]
        ·
          by_cases w3 : w = c!"or"
          · subst w3
            have hb : binText c!"or" = some c!" OR " := by decide
            obtain ⟨⟨g2, K2, Rr⟩, Fr⟩ := hr c!" OR "
            have Ir := (sin_in Il .nil).keep K2
            cases er : svisit (senv p Z.G (!S.dis)) S.node r (mb1.write c!" OR ") with
            | panic =>
              rw [er] at Rr Fr
              refine ⟨⟨g, I.keeps, ?_⟩, ?_⟩
              · gorun [sLocals, sVisitAt, safter_norm, safter_ret, safter_panic, endSwitch_norm, endSwitch_ret, endSwitch_panic, sp_mb, sp_node, sp_s, sp_errors, sp_miniquery, sp_xstrings, sp_strings, sp_sql, sin_at (g0 := g0) (m := m) (e := e), sin_m (Z := Z) (g0 := g0) (m := m) (e := e), sin_e (Z := Z) (g0 := g0) (m := m) (e := e), sin_pute (Z := Z) (g0 := g0) (m := m) (e := e), sin_in, fits_put, fits_write, fits_join, hf, hz, I, write_write, ss_WriteString (Z := Z), sl_WriteString (Z := Z), same_sErr, svisit, sqOut, SRes.also, SRes.andThen, execSwitch, execFrom, anySame, scase_compare, sq_LeftLogic, sq_OpLogic, sq_RightLogic, ho', hm, hb, sg_OpMap, fl, h2, vc_op, vc_found, sBin, Rl, el, sg_NotLike, sg_And, sg_Or, ss_Pad (Z := Z), sl_Pad (Z := Z), sg_Upper, sl_Upper, ss_WriteOp (Z := Z), sg_Errorf, sl_Errorf, sErr_unexpectedOp, hw, up1, up2, up3, Fl, Il, Rr, er]
              · simp [svisit, sBin, hm, hb, el, SRes.also, SRes.andThen, SFits, fits_write, Fl, write_write, er]
            | err e2 mb2 =>
              rw [er] at Rr Fr
              simp only [SFits] at Fr
              refine ⟨⟨g2.put e (sErrVal e2), skeeps_put Ir.keeps Ir.e0 _, ?_⟩, ?_⟩
              · gorun [sLocals, sVisitAt, safter_norm, safter_ret, safter_panic, endSwitch_norm, endSwitch_ret, endSwitch_panic, sp_mb, sp_node, sp_s, sp_errors, sp_miniquery, sp_xstrings, sp_strings, sp_sql, sin_at (g0 := g0) (m := m) (e := e), sin_m (Z := Z) (g0 := g0) (m := m) (e := e), sin_e (Z := Z) (g0 := g0) (m := m) (e := e), sin_pute (Z := Z) (g0 := g0) (m := m) (e := e), sin_in, fits_put, fits_write, fits_join, hf, hz, I, write_write, ss_WriteString (Z := Z), sl_WriteString (Z := Z), same_sErr, svisit, sqOut, SRes.also, SRes.andThen, execSwitch, execFrom, anySame, scase_compare, sq_LeftLogic, sq_OpLogic, sq_RightLogic, ho', hm, hb, sg_OpMap, fl, h2, vc_op, vc_found, sBin, Rl, el, sg_NotLike, sg_And, sg_Or, ss_Pad (Z := Z), sl_Pad (Z := Z), sg_Upper, sl_Upper, ss_WriteOp (Z := Z), sg_Errorf, sl_Errorf, sErr_unexpectedOp, hw, up1, up2, up3, Fl, Il, Rr, er, Fr, Ir]
              · simp [svisit, sBin, hm, hb, el, SRes.also, SRes.andThen, SFits, fits_write, Fl, write_write, er, Fr]
            | ok mb2 =>
              rw [er] at Rr Fr
              simp only [SFits] at Fr
              refine ⟨⟨g2.put e .nil, skeeps_put Ir.keeps Ir.e0 _, ?_⟩, ?_⟩
              · gorun [sLocals, sVisitAt, safter_norm, safter_ret, safter_panic, endSwitch_norm, endSwitch_ret, endSwitch_panic, sp_mb, sp_node, sp_s, sp_errors, sp_miniquery, sp_xstrings, sp_strings, sp_sql, sin_at (g0 := g0) (m := m) (e := e), sin_m (Z := Z) (g0 := g0) (m := m) (e := e), sin_e (Z := Z) (g0 := g0) (m := m) (e := e), sin_pute (Z := Z) (g0 := g0) (m := m) (e := e), sin_in, fits_put, fits_write, fits_join, hf, hz, I, write_write, ss_WriteString (Z := Z), sl_WriteString (Z := Z), same_sErr, svisit, sqOut, SRes.also, SRes.andThen, execSwitch, execFrom, anySame, scase_compare, sq_LeftLogic, sq_OpLogic, sq_RightLogic, ho', hm, hb, sg_OpMap, fl, h2, vc_op, vc_found, sBin, Rl, el, sg_NotLike, sg_And, sg_Or, ss_Pad (Z := Z), sl_Pad (Z := Z), sg_Upper, sl_Upper, ss_WriteOp (Z := Z), sg_Errorf, sl_Errorf, sErr_unexpectedOp, hw, up1, up2, up3, Fl, Il, Rr, er, Fr, Ir]
              · simp [svisit, sBin, hm, hb, el, SRes.also, SRes.andThen, SFits, fits_write, Fl, write_write, er, Fr]
          ·
            have hb : binText w = none := by simp [binText, h1, w1, w2, w3]
            refine ⟨⟨g1.put e .nil, skeeps_put Il.keeps Il.e0 _, ?_⟩, ?_⟩
            · gorun [sLocals, sVisitAt, safter_norm, safter_ret, safter_panic, endSwitch_norm, endSwitch_ret, endSwitch_panic, sp_mb, sp_node, sp_s, sp_errors, sp_miniquery, sp_xstrings, sp_strings, sp_sql, sin_at (g0 := g0) (m := m) (e := e), sin_m (Z := Z) (g0 := g0) (m := m) (e := e), sin_e (Z := Z) (g0 := g0) (m := m) (e := e), sin_pute (Z := Z) (g0 := g0) (m := m) (e := e), sin_in, fits_put, fits_write, fits_join, hf, hz, I, write_write, ss_WriteString (Z := Z), sl_WriteString (Z := Z), same_sErr, svisit, sqOut, SRes.also, SRes.andThen, execSwitch, execFrom, anySame, scase_compare, sq_LeftLogic, sq_OpLogic, sq_RightLogic, ho', hm, hb, sg_OpMap, fl, h2, vc_op, vc_found, sBin, Rl, el, sg_NotLike, sg_And, sg_Or, ss_Pad (Z := Z), sl_Pad (Z := Z), sg_Upper, sl_Upper, ss_WriteOp (Z := Z), sg_Errorf, sl_Errorf, sErr_unexpectedOp, hw, up1, up2, up3, Fl, Il, w1, w2, w3]
            · simp [svisit, sBin, hm, hb, el, SRes.also, SRes.andThen, SFits, fits_write, Fl, write_write]
    · have hw := fun n g mb A hf => sl_WriteOp (Q := Q) (N := N) (D := D) (p := p) (k := k) (n := n) (g := g) (mb := mb) (S := S) (Z := Z) A hf ow t h3
      have hb : binText w = some t := by simp [binText, h1]
      obtain ⟨⟨g2, K2, Rr⟩, Fr⟩ := hr t
      have Ir := (sin_in Il .nil).keep K2
      cases er : svisit (senv p Z.G (!S.dis)) S.node r (mb1.write t) with
      | panic =>
        rw [er] at Rr Fr
        refine ⟨⟨g, I.keeps, ?_⟩, ?_⟩
        · gorun [sLocals, sVisitAt, safter_norm, safter_ret, safter_panic, endSwitch_norm, endSwitch_ret, endSwitch_panic, sp_mb, sp_node, sp_s, sp_errors, sp_miniquery, sp_xstrings, sp_strings, sp_sql, sin_at (g0 := g0) (m := m) (e := e), sin_m (Z := Z) (g0 := g0) (m := m) (e := e), sin_e (Z := Z) (g0 := g0) (m := m) (e := e), sin_pute (Z := Z) (g0 := g0) (m := m) (e := e), sin_in, fits_put, fits_write, fits_join, hf, hz, I, write_write, ss_WriteString (Z := Z), sl_WriteString (Z := Z), same_sErr, svisit, sqOut, SRes.also, SRes.andThen, execSwitch, execFrom, anySame, scase_compare, sq_LeftLogic, sq_OpLogic, sq_RightLogic, ho', hm, hb, sg_OpMap, fl, h2, vc_op, vc_found, sBin, Rl, el, sg_NotLike, sg_And, sg_Or, ss_Pad (Z := Z), sl_Pad (Z := Z), sg_Upper, sl_Upper, ss_WriteOp (Z := Z), sg_Errorf, sl_Errorf, sErr_unexpectedOp, hw, up1, up2, up3, Fl, Il, Rr, er]
        · simp [svisit, sBin, hm, hb, el, SRes.also, SRes.andThen, SFits, fits_write, Fl, write_write, er]
      | err e2 mb2 =>
        rw [er] at Rr Fr
        simp only [SFits] at Fr
        refine ⟨⟨g2.put e (sErrVal e2), skeeps_put Ir.keeps Ir.e0 _, ?_⟩, ?_⟩
        · gorun [sLocals, sVisitAt, safter_norm, safter_ret, safter_panic, endSwitch_norm, endSwitch_ret, endSwitch_panic, sp_mb, sp_node, sp_s, sp_errors, sp_miniquery, sp_xstrings, sp_strings, sp_sql, sin_at (g0 := g0) (m := m) (e := e), sin_m (Z := Z) (g0 := g0) (m := m) (e := e), sin_e (Z := Z) (g0 := g0) (m := m) (e := e), sin_pute (Z := Z) (g0 := g0) (m := m) (e := e), sin_in, fits_put, fits_write, fits_join, hf, hz, I, write_write, ss_WriteString (Z := Z), sl_WriteString (Z := Z), same_sErr, svisit, sqOut, SRes.also, SRes.andThen, execSwitch, execFrom, anySame, scase_compare, sq_LeftLogic, sq_OpLogic, sq_RightLogic, ho', hm, hb, sg_OpMap, fl, h2, vc_op, vc_found, sBin, Rl, el, sg_NotLike, sg_And, sg_Or, ss_Pad (Z := Z), sl_Pad (Z := Z), sg_Upper, sl_Upper, ss_WriteOp (Z := Z), sg_Errorf, sl_Errorf, sErr_unexpectedOp, hw, up1, up2, up3, Fl, Il, Rr, er, Fr, Ir]
        · simp [svisit, sBin, hm, hb, el, SRes.also, SRes.andThen, SFits, fits_write, Fl, write_write, er, Fr]
      | ok mb2 =>
        rw [er] at Rr Fr
        simp only [SFits] at Fr
        refine ⟨⟨g2.put e .nil, skeeps_put Ir.keeps Ir.e0 _, ?_⟩, ?_⟩
        · gorun [sLocals, sVisitAt, safter_norm, safter_ret, safter_panic, endSwitch_norm, endSwitch_ret, endSwitch_panic, sp_mb, sp_node, sp_s, sp_errors, sp_miniquery, sp_xstrings, sp_strings, sp_sql, sin_at (g0 := g0) (m := m) (e := e), sin_m (Z := Z) (g0 := g0) (m := m) (e := e), sin_e (Z := Z) (g0 := g0) (m := m) (e := e), sin_pute (Z := Z) (g0 := g0) (m := m) (e := e), sin_in, fits_put, fits_write, fits_join, hf, hz, I, write_write, ss_WriteString (Z := Z), sl_WriteString (Z := Z), same_sErr, svisit, sqOut, SRes.also, SRes.andThen, execSwitch, execFrom, anySame, scase_compare, sq_LeftLogic, sq_OpLogic, sq_RightLogic, ho', hm, hb, sg_OpMap, fl, h2, vc_op, vc_found, sBin, Rl, el, sg_NotLike, sg_And, sg_Or, ss_Pad (Z := Z), sl_Pad (Z := Z), sg_Upper, sl_Upper, ss_WriteOp (Z := Z), sg_Errorf, sl_Errorf, sErr_unexpectedOp, hw, up1, up2, up3, Fl, Il, Rr, er, Fr, Ir]
        · simp [svisit, sBin, hm, hb, el, SRes.also, SRes.andThen, SFits, fits_write, Fl, write_write, er, Fr]

set_option maxHeartbeats 1000000 in
theorem sv_between (l o x y) (I : SIn Z S g0 m e g) (hf : Fits S mb) (hz : g.mem e = .nil) (ih : SBelow Q N D p Z S k (n + 2) kk) (hl : lvl (.between l o x y) ≤ kk) (hc : Complete l) (hx : Complete x) (hy : Complete y) (hn : o ≠ .nil) :
    SDone S g0 (sVisitAt (sqCall Q N D p k (n + 2)) 6 scase_between (sLocals S m e (.between l o x y)) (sHeap S mb g)) (svisit (senv p Z.G (!S.dis)) S.node (.between l o x y) mb) := by
  rw [lvl] at hl
  have ho' := fun h => sq_Oper (h := h) hn
  have hm := operation_some hn
  generalize (operation o).getD [] = w at ho' hm
  have hw1 := fun n g mb A hf => sl_WriteOp (Q := Q) (N := N) (D := D) (p := p) (k := k) (n := n) (g := g) (mb := mb) (S := S) (Z := Z) A hf c!"sql.OpGTE" c!" >= " rfl
  have hw2 := fun n g mb A hf => sl_WriteOp (Q := Q) (N := N) (D := D) (p := p) (k := k) (n := n) (g := g) (mb := mb) (S := S) (Z := Z) A hf c!"sql.OpLTE" c!" <= " rfl
  have hw3 := fun n g mb A hf => sl_WriteOp (Q := Q) (N := N) (D := D) (p := p) (k := k) (n := n) (g := g) (mb := mb) (S := S) (Z := Z) A hf c!"sql.OpLT" c!" < " rfl
  have hw4 := fun n g mb A hf => sl_WriteOp (Q := Q) (N := N) (D := D) (p := p) (k := k) (n := n) (g := g) (mb := mb) (S := S) (Z := Z) A hf c!"sql.OpGT" c!" > " rfl
  by_cases hw : w = c!"not between"
  · subst hw
    have hw := True.intro
    obtain ⟨⟨g1, K1, R1⟩, F1⟩ := ih l (by omega) hc g mb I.at_ (by first | exact hf | (rw [fits_write]; exact hf))
    have I1 := I.keep K1
    cases e1 : svisit (senv p Z.G (!S.dis)) S.node l mb with
    | panic =>
      rw [e1] at R1
      refine ⟨⟨g, I.keeps, ?_⟩, ?_⟩
      · gorun [sLocals, sVisitAt, safter_norm, safter_ret, safter_panic, endSwitch_norm, endSwitch_ret, endSwitch_panic, sp_mb, sp_node, sp_s, sp_errors, sp_miniquery, sp_xstrings, sp_strings, sp_sql, sin_at (g0 := g0) (m := m) (e := e), sin_m (Z := Z) (g0 := g0) (m := m) (e := e), sin_e (Z := Z) (g0 := g0) (m := m) (e := e), sin_pute (Z := Z) (g0 := g0) (m := m) (e := e), sin_in, fits_put, fits_write, fits_join, hf, hz, I, write_write, ss_WriteString (Z := Z), sl_WriteString (Z := Z), same_sErr, svisit, sqOut, SRes.also, SRes.andThen, execSwitch, execFrom, anySame, scase_between, sq_LeftBetween, sq_OpBetween, sq_ParamsBetween, ho', hm, vc_lo, vc_ro, sg_GTE, sg_LTE, sg_LT, sg_GT, sg_NotBetween, ss_WriteOp (Z := Z), hw1, hw2, hw3, hw4, hf, hw, R1, e1, hw]
      · simp [svisit, hm, SFits, SRes.andThen, hw, e1]
    | err er1 mb1 =>
      rw [e1] at R1 F1
      simp only [SFits] at F1
      refine ⟨⟨g1.put e (sErrVal er1), skeeps_put I1.keeps I1.e0 _, ?_⟩, ?_⟩
      · gorun [sLocals, sVisitAt, safter_norm, safter_ret, safter_panic, endSwitch_norm, endSwitch_ret, endSwitch_panic, sp_mb, sp_node, sp_s, sp_errors, sp_miniquery, sp_xstrings, sp_strings, sp_sql, sin_at (g0 := g0) (m := m) (e := e), sin_m (Z := Z) (g0 := g0) (m := m) (e := e), sin_e (Z := Z) (g0 := g0) (m := m) (e := e), sin_pute (Z := Z) (g0 := g0) (m := m) (e := e), sin_in, fits_put, fits_write, fits_join, hf, hz, I, write_write, ss_WriteString (Z := Z), sl_WriteString (Z := Z), same_sErr, svisit, sqOut, SRes.also, SRes.andThen, execSwitch, execFrom, anySame, scase_between, sq_LeftBetween, sq_OpBetween, sq_ParamsBetween, ho', hm, vc_lo, vc_ro, sg_GTE, sg_LTE, sg_LT, sg_GT, sg_NotBetween, ss_WriteOp (Z := Z), hw1, hw2, hw3, hw4, hf, hw, R1, e1, hw, F1, I1]
      · simp [svisit, hm, SFits, SRes.andThen, hw, e1, F1]
    | ok mb1 =>
      rw [e1] at R1 F1
      simp only [SFits] at F1
      obtain ⟨⟨g2, K2, R2⟩, F2⟩ := ih x (by omega) hx (g1.put e .nil) (mb1.write c!" < ") (sin_in I1 _).at_ (by first | exact F1 | (rw [fits_write]; exact F1))
      have I2 := (sin_in I1 .nil).keep K2
      cases e2 : svisit (senv p Z.G (!S.dis)) S.node x (mb1.write c!" < ") with
      | panic =>
        rw [e2] at R2
        refine ⟨⟨g, I.keeps, ?_⟩, ?_⟩
        · gorun [sLocals, sVisitAt, safter_norm, safter_ret, safter_panic, endSwitch_norm, endSwitch_ret, endSwitch_panic, sp_mb, sp_node, sp_s, sp_errors, sp_miniquery, sp_xstrings, sp_strings, sp_sql, sin_at (g0 := g0) (m := m) (e := e), sin_m (Z := Z) (g0 := g0) (m := m) (e := e), sin_e (Z := Z) (g0 := g0) (m := m) (e := e), sin_pute (Z := Z) (g0 := g0) (m := m) (e := e), sin_in, fits_put, fits_write, fits_join, hf, hz, I, write_write, ss_WriteString (Z := Z), sl_WriteString (Z := Z), same_sErr, svisit, sqOut, SRes.also, SRes.andThen, execSwitch, execFrom, anySame, scase_between, sq_LeftBetween, sq_OpBetween, sq_ParamsBetween, ho', hm, vc_lo, vc_ro, sg_GTE, sg_LTE, sg_LT, sg_GT, sg_NotBetween, ss_WriteOp (Z := Z), hw1, hw2, hw3, hw4, hf, hw, R1, e1, F1, I1, R2, e2, hw]
        · simp [svisit, hm, SFits, SRes.andThen, hw, e1, e2]
      | err er2 mb2 =>
        rw [e2] at R2 F2
        simp only [SFits] at F2
        refine ⟨⟨g2.put e (sErrVal er2), skeeps_put I2.keeps I2.e0 _, ?_⟩, ?_⟩
        · gorun [sLocals, sVisitAt, safter_norm, safter_ret, safter_panic, endSwitch_norm, endSwitch_ret, endSwitch_panic, sp_mb, sp_node, sp_s, sp_errors, sp_miniquery, sp_xstrings, sp_strings, sp_sql, sin_at (g0 := g0) (m := m) (e := e), sin_m (Z := Z) (g0 := g0) (m := m) (e := e), sin_e (Z := Z) (g0 := g0) (m := m) (e := e), sin_pute (Z := Z) (g0 := g0) (m := m) (e := e), sin_in, fits_put, fits_write, fits_join, hf, hz, I, write_write, ss_WriteString (Z := Z), sl_WriteString (Z := Z), same_sErr, svisit, sqOut, SRes.also, SRes.andThen, execSwitch, execFrom, anySame, scase_between, sq_LeftBetween, sq_OpBetween, sq_ParamsBetween, ho', hm, vc_lo, vc_ro, sg_GTE, sg_LTE, sg_LT, sg_GT, sg_NotBetween, ss_WriteOp (Z := Z), hw1, hw2, hw3, hw4, hf, hw, R1, e1, F1, I1, R2, e2, hw, F2, I2]
        · simp [svisit, hm, SFits, SRes.andThen, hw, e1, e2, F2]
      | ok mb2 =>
        rw [e2] at R2 F2
        simp only [SFits] at F2
        obtain ⟨⟨g3, K3, R3⟩, F3⟩ := ih l (by omega) hc (g2.put e .nil) (mb2.write c!" AND ") (sin_in I2 _).at_ (by first | exact F2 | (rw [fits_write]; exact F2))
        have I3 := (sin_in I2 .nil).keep K3
        cases e3 : svisit (senv p Z.G (!S.dis)) S.node l (mb2.write c!" AND ") with
        | panic =>
          rw [e3] at R3
          refine ⟨⟨g, I.keeps, ?_⟩, ?_⟩
          · gorun [sLocals, sVisitAt, safter_norm, safter_ret, safter_panic, endSwitch_norm, endSwitch_ret, endSwitch_panic, sp_mb, sp_node, sp_s, sp_errors, sp_miniquery, sp_xstrings, sp_strings, sp_sql, sin_at (g0 := g0) (m := m) (e := e), sin_m (Z := Z) (g0 := g0) (m := m) (e := e), sin_e (Z := Z) (g0 := g0) (m := m) (e := e), sin_pute (Z := Z) (g0 := g0) (m := m) (e := e), sin_in, fits_put, fits_write, fits_join, hf, hz, I, write_write, ss_WriteString (Z := Z), sl_WriteString (Z := Z), same_sErr, svisit, sqOut, SRes.also, SRes.andThen, execSwitch, execFrom, anySame, scase_between, sq_LeftBetween, sq_OpBetween, sq_ParamsBetween, ho', hm, vc_lo, vc_ro, sg_GTE, sg_LTE, sg_LT, sg_GT, sg_NotBetween, ss_WriteOp (Z := Z), hw1, hw2, hw3, hw4, hf, hw, R1, e1, F1, I1, R2, e2, F2, I2, R3, e3, hw]
          · simp [svisit, hm, SFits, SRes.andThen, hw, e1, e2, e3]
        | err er3 mb3 =>
          rw [e3] at R3 F3
          simp only [SFits] at F3
          refine ⟨⟨g3.put e (sErrVal er3), skeeps_put I3.keeps I3.e0 _, ?_⟩, ?_⟩
          · gorun [sLocals, sVisitAt, safter_norm, safter_ret, safter_panic, endSwitch_norm, endSwitch_ret, endSwitch_panic, sp_mb, sp_node, sp_s, sp_errors, sp_miniquery, sp_xstrings, sp_strings, sp_sql, sin_at (g0 := g0) (m := m) (e := e), sin_m (Z := Z) (g0 := g0) (m := m) (e := e), sin_e (Z := Z) (g0 := g0) (m := m) (e := e), sin_pute (Z := Z) (g0 := g0) (m := m) (e := e), sin_in, fits_put, fits_write, fits_join, hf, hz, I, write_write, ss_WriteString (Z := Z), sl_WriteString (Z := Z), same_sErr, svisit, sqOut, SRes.also, SRes.andThen, execSwitch, execFrom, anySame, scase_between, sq_LeftBetween, sq_OpBetween, sq_ParamsBetween, ho', hm, vc_lo, vc_ro, sg_GTE, sg_LTE, sg_LT, sg_GT, sg_NotBetween, ss_WriteOp (Z := Z), hw1, hw2, hw3, hw4, hf, hw, R1, e1, F1, I1, R2, e2, F2, I2, R3, e3, hw, F3, I3]
          · simp [svisit, hm, SFits, SRes.andThen, hw, e1, e2, e3, F3]
        | ok mb3 =>
          rw [e3] at R3 F3
          simp only [SFits] at F3
          obtain ⟨⟨g4, K4, R4⟩, F4⟩ := ih y (by omega) hy (g3.put e .nil) (mb3.write c!" > ") (sin_in I3 _).at_ (by first | exact F3 | (rw [fits_write]; exact F3))
          have I4 := (sin_in I3 .nil).keep K4
          cases e4 : svisit (senv p Z.G (!S.dis)) S.node y (mb3.write c!" > ") with
          | panic =>
            rw [e4] at R4
            refine ⟨⟨g, I.keeps, ?_⟩, ?_⟩
            · gorun [sLocals, sVisitAt, safter_norm, safter_ret, safter_panic, endSwitch_norm, endSwitch_ret, endSwitch_panic, sp_mb, sp_node, sp_s, sp_errors, sp_miniquery, sp_xstrings, sp_strings, sp_sql, sin_at (g0 := g0) (m := m) (e := e), sin_m (Z := Z) (g0 := g0) (m := m) (e := e), sin_e (Z := Z) (g0 := g0) (m := m) (e := e), sin_pute (Z := Z) (g0 := g0) (m := m) (e := e), sin_in, fits_put, fits_write, fits_join, hf, hz, I, write_write, ss_WriteString (Z := Z), sl_WriteString (Z := Z), same_sErr, svisit, sqOut, SRes.also, SRes.andThen, execSwitch, execFrom, anySame, scase_between, sq_LeftBetween, sq_OpBetween, sq_ParamsBetween, ho', hm, vc_lo, vc_ro, sg_GTE, sg_LTE, sg_LT, sg_GT, sg_NotBetween, ss_WriteOp (Z := Z), hw1, hw2, hw3, hw4, hf, hw, R1, e1, F1, I1, R2, e2, F2, I2, R3, e3, F3, I3, R4, e4, hw]
            · simp [svisit, hm, SFits, SRes.andThen, hw, e1, e2, e3, e4]
          | err er4 mb4 =>
            rw [e4] at R4 F4
            simp only [SFits] at F4
            refine ⟨⟨g4.put e (sErrVal er4), skeeps_put I4.keeps I4.e0 _, ?_⟩, ?_⟩
            · gorun [sLocals, sVisitAt, safter_norm, safter_ret, safter_panic, endSwitch_norm, endSwitch_ret, endSwitch_panic, sp_mb, sp_node, sp_s, sp_errors, sp_miniquery, sp_xstrings, sp_strings, sp_sql, sin_at (g0 := g0) (m := m) (e := e), sin_m (Z := Z) (g0 := g0) (m := m) (e := e), sin_e (Z := Z) (g0 := g0) (m := m) (e := e), sin_pute (Z := Z) (g0 := g0) (m := m) (e := e), sin_in, fits_put, fits_write, fits_join, hf, hz, I, write_write, ss_WriteString (Z := Z), sl_WriteString (Z := Z), same_sErr, svisit, sqOut, SRes.also, SRes.andThen, execSwitch, execFrom, anySame, scase_between, sq_LeftBetween, sq_OpBetween, sq_ParamsBetween, ho', hm, vc_lo, vc_ro, sg_GTE, sg_LTE, sg_LT, sg_GT, sg_NotBetween, ss_WriteOp (Z := Z), hw1, hw2, hw3, hw4, hf, hw, R1, e1, F1, I1, R2, e2, F2, I2, R3, e3, F3, I3, R4, e4, hw, F4, I4]
            · simp [svisit, hm, SFits, SRes.andThen, hw, e1, e2, e3, e4, F4]
          | ok mb4 =>
            rw [e4] at R4 F4
            simp only [SFits] at F4
            refine ⟨⟨g4.put e .nil, skeeps_put I4.keeps I4.e0 _, ?_⟩, ?_⟩
            · gorun [sLocals, sVisitAt, safter_norm, safter_ret, safter_panic, endSwitch_norm, endSwitch_ret, endSwitch_panic, sp_mb, sp_node, sp_s, sp_errors, sp_miniquery, sp_xstrings, sp_strings, sp_sql, sin_at (g0 := g0) (m := m) (e := e), sin_m (Z := Z) (g0 := g0) (m := m) (e := e), sin_e (Z := Z) (g0 := g0) (m := m) (e := e), sin_pute (Z := Z) (g0 := g0) (m := m) (e := e), sin_in, fits_put, fits_write, fits_join, hf, hz, I, write_write, ss_WriteString (Z := Z), sl_WriteString (Z := Z), same_sErr, svisit, sqOut, SRes.also, SRes.andThen, execSwitch, execFrom, anySame, scase_between, sq_LeftBetween, sq_OpBetween, sq_ParamsBetween, ho', hm, vc_lo, vc_ro, sg_GTE, sg_LTE, sg_LT, sg_GT, sg_NotBetween, ss_WriteOp (Z := Z), hw1, hw2, hw3, hw4, hf, hw, R1, e1, F1, I1, R2, e2, F2, I2, R3, e3, F3, I3, R4, e4, F4, I4, hw]
            · simp [svisit, hm, SFits, SRes.andThen, hw, e1, e2, e3, e4, F4]
  ·
    obtain ⟨⟨g1, K1, R1⟩, F1⟩ := ih l (by omega) hc g mb I.at_ (by first | exact hf | (rw [fits_write]; exact hf))
    have I1 := I.keep K1
    cases e1 : svisit (senv p Z.G (!S.dis)) S.node l mb with
    | panic =>
      rw [e1] at R1
      refine ⟨⟨g, I.keeps, ?_⟩, ?_⟩
      · gorun [sLocals, sVisitAt, safter_norm, safter_ret, safter_panic, endSwitch_norm, endSwitch_ret, endSwitch_panic, sp_mb, sp_node, sp_s, sp_errors, sp_miniquery, sp_xstrings, sp_strings, sp_sql, sin_at (g0 := g0) (m := m) (e := e), sin_m (Z := Z) (g0 := g0) (m := m) (e := e), sin_e (Z := Z) (g0 := g0) (m := m) (e := e), sin_pute (Z := Z) (g0 := g0) (m := m) (e := e), sin_in, fits_put, fits_write, fits_join, hf, hz, I, write_write, ss_WriteString (Z := Z), sl_WriteString (Z := Z), same_sErr, svisit, sqOut, SRes.also, SRes.andThen, execSwitch, execFrom, anySame, scase_between, sq_LeftBetween, sq_OpBetween, sq_ParamsBetween, ho', hm, vc_lo, vc_ro, sg_GTE, sg_LTE, sg_LT, sg_GT, sg_NotBetween, ss_WriteOp (Z := Z), hw1, hw2, hw3, hw4, hf, hw, R1, e1, hw]
      · simp [svisit, hm, SFits, SRes.andThen, hw, e1]
    | err er1 mb1 =>
      rw [e1] at R1 F1
      simp only [SFits] at F1
      refine ⟨⟨g1.put e (sErrVal er1), skeeps_put I1.keeps I1.e0 _, ?_⟩, ?_⟩
      · gorun [sLocals, sVisitAt, safter_norm, safter_ret, safter_panic, endSwitch_norm, endSwitch_ret, endSwitch_panic, sp_mb, sp_node, sp_s, sp_errors, sp_miniquery, sp_xstrings, sp_strings, sp_sql, sin_at (g0 := g0) (m := m) (e := e), sin_m (Z := Z) (g0 := g0) (m := m) (e := e), sin_e (Z := Z) (g0 := g0) (m := m) (e := e), sin_pute (Z := Z) (g0 := g0) (m := m) (e := e), sin_in, fits_put, fits_write, fits_join, hf, hz, I, write_write, ss_WriteString (Z := Z), sl_WriteString (Z := Z), same_sErr, svisit, sqOut, SRes.also, SRes.andThen, execSwitch, execFrom, anySame, scase_between, sq_LeftBetween, sq_OpBetween, sq_ParamsBetween, ho', hm, vc_lo, vc_ro, sg_GTE, sg_LTE, sg_LT, sg_GT, sg_NotBetween, ss_WriteOp (Z := Z), hw1, hw2, hw3, hw4, hf, hw, R1, e1, hw, F1, I1]
      · simp [svisit, hm, SFits, SRes.andThen, hw, e1, F1]
    | ok mb1 =>
      rw [e1] at R1 F1
      simp only [SFits] at F1
      obtain ⟨⟨g2, K2, R2⟩, F2⟩ := ih x (by omega) hx (g1.put e .nil) (mb1.write c!" >= ") (sin_in I1 _).at_ (by first | exact F1 | (rw [fits_write]; exact F1))
      have I2 := (sin_in I1 .nil).keep K2
      cases e2 : svisit (senv p Z.G (!S.dis)) S.node x (mb1.write c!" >= ") with
      | panic =>
        rw [e2] at R2
        refine ⟨⟨g, I.keeps, ?_⟩, ?_⟩
        · gorun [sLocals, sVisitAt, safter_norm, safter_ret, safter_panic, endSwitch_norm, endSwitch_ret, endSwitch_panic, sp_mb, sp_node, sp_s, sp_errors, sp_miniquery, sp_xstrings, sp_strings, sp_sql, sin_at (g0 := g0) (m := m) (e := e), sin_m (Z := Z) (g0 := g0) (m := m) (e := e), sin_e (Z := Z) (g0 := g0) (m := m) (e := e), sin_pute (Z := Z) (g0 := g0) (m := m) (e := e), sin_in, fits_put, fits_write, fits_join, hf, hz, I, write_write, ss_WriteString (Z := Z), sl_WriteString (Z := Z), same_sErr, svisit, sqOut, SRes.also, SRes.andThen, execSwitch, execFrom, anySame, scase_between, sq_LeftBetween, sq_OpBetween, sq_ParamsBetween, ho', hm, vc_lo, vc_ro, sg_GTE, sg_LTE, sg_LT, sg_GT, sg_NotBetween, ss_WriteOp (Z := Z), hw1, hw2, hw3, hw4, hf, hw, R1, e1, F1, I1, R2, e2, hw]
        · simp [svisit, hm, SFits, SRes.andThen, hw, e1, e2]
      | err er2 mb2 =>
        rw [e2] at R2 F2
        simp only [SFits] at F2
        refine ⟨⟨g2.put e (sErrVal er2), skeeps_put I2.keeps I2.e0 _, ?_⟩, ?_⟩
        · gorun [sLocals, sVisitAt, safter_norm, safter_ret, safter_panic, endSwitch_norm, endSwitch_ret, endSwitch_panic, sp_mb, sp_node, sp_s, sp_errors, sp_miniquery, sp_xstrings, sp_strings, sp_sql, sin_at (g0 := g0) (m := m) (e := e), sin_m (Z := Z) (g0 := g0) (m := m) (e := e), sin_e (Z := Z) (g0 := g0) (m := m) (e := e), sin_pute (Z := Z) (g0 := g0) (m := m) (e := e), sin_in, fits_put, fits_write, fits_join, hf, hz, I, write_write, ss_WriteString (Z := Z), sl_WriteString (Z := Z), same_sErr, svisit, sqOut, SRes.also, SRes.andThen, execSwitch, execFrom, anySame, scase_between, sq_LeftBetween, sq_OpBetween, sq_ParamsBetween, ho', hm, vc_lo, vc_ro, sg_GTE, sg_LTE, sg_LT, sg_GT, sg_NotBetween, ss_WriteOp (Z := Z), hw1, hw2, hw3, hw4, hf, hw, R1, e1, F1, I1, R2, e2, hw, F2, I2]
        · simp [svisit, hm, SFits, SRes.andThen, hw, e1, e2, F2]
      | ok mb2 =>
        rw [e2] at R2 F2
        simp only [SFits] at F2
        obtain ⟨⟨g3, K3, R3⟩, F3⟩ := ih l (by omega) hc (g2.put e .nil) (mb2.write c!" AND ") (sin_in I2 _).at_ (by first | exact F2 | (rw [fits_write]; exact F2))
        have I3 := (sin_in I2 .nil).keep K3
        cases e3 : svisit (senv p Z.G (!S.dis)) S.node l (mb2.write c!" AND ") with
        | panic =>
          rw [e3] at R3
          refine ⟨⟨g, I.keeps, ?_⟩, ?_⟩
          · gorun [sLocals, sVisitAt, safter_norm, safter_ret, safter_panic, endSwitch_norm, endSwitch_ret, endSwitch_panic, sp_mb, sp_node, sp_s, sp_errors, sp_miniquery, sp_xstrings, sp_strings, sp_sql, sin_at (g0 := g0) (m := m) (e := e), sin_m (Z := Z) (g0 := g0) (m := m) (e := e), sin_e (Z := Z) (g0 := g0) (m := m) (e := e), sin_pute (Z := Z) (g0 := g0) (m := m) (e := e), sin_in, fits_put, fits_write, fits_join, hf, hz, I, write_write, ss_WriteString (Z := Z), sl_WriteString (Z := Z), same_sErr, svisit, sqOut, SRes.also, SRes.andThen, execSwitch, execFrom, anySame, scase_between, sq_LeftBetween, sq_OpBetween, sq_ParamsBetween, ho', hm, vc_lo, vc_ro, sg_GTE, sg_LTE, sg_LT, sg_GT, sg_NotBetween, ss_WriteOp (Z := Z), hw1, hw2, hw3, hw4, hf, hw, R1, e1, F1, I1, R2, e2, F2, I2, R3, e3, hw]
          · simp [svisit, hm, SFits, SRes.andThen, hw, e1, e2, e3]
        | err er3 mb3 =>
          rw [e3] at R3 F3
          simp only [SFits] at F3
          refine ⟨⟨g3.put e (sErrVal er3), skeeps_put I3.keeps I3.e0 _, ?_⟩, ?_⟩
          · gorun [sLocals, sVisitAt, safter_norm, safter_ret, safter_panic, endSwitch_norm, endSwitch_ret, endSwitch_panic, sp_mb, sp_node, sp_s, sp_errors, sp_miniquery, sp_xstrings, sp_strings, sp_sql, sin_at (g0 := g0) (m := m) (e := e), sin_m (Z := Z) (g0 := g0) (m := m) (e := e), sin_e (Z := Z) (g0 := g0) (m := m) (e := e), sin_pute (Z := Z) (g0 := g0) (m := m) (e := e), sin_in, fits_put, fits_write, fits_join, hf, hz, I, write_write, ss_WriteString (Z := Z), sl_WriteString (Z := Z), same_sErr, svisit, sqOut, SRes.also, SRes.andThen, execSwitch, execFrom, anySame, scase_between, sq_LeftBetween, sq_OpBetween, sq_ParamsBetween, ho', hm, vc_lo, vc_ro, sg_GTE, sg_LTE, sg_LT, sg_GT, sg_NotBetween, ss_WriteOp (Z := Z), hw1, hw2, hw3, hw4, hf, hw, R1, e1, F1, I1, R2, e2, F2, I2, R3, e3, hw, F3, I3]
          · simp [svisit, hm, SFits, SRes.andThen, hw, e1, e2, e3, F3]
        | ok mb3 =>
          rw [e3] at R3 F3
          simp only [SFits] at F3
          obtain ⟨⟨g4, K4, R4⟩, F4⟩ := ih y (by omega) hy (g3.put e .nil) (mb3.write c!" <= ") (sin_in I3 _).at_ (by first | exact F3 | (rw [fits_write]; exact F3))
          have I4 := (sin_in I3 .nil).keep K4
          cases e4 : svisit (senv p Z.G (!S.dis)) S.node y (mb3.write c!" <= ") with
          | panic =>
            rw [e4] at R4
            refine ⟨⟨g, I.keeps, ?_⟩, ?_⟩
            · gorun [sLocals, sVisitAt, safter_norm, safter_ret, safter_panic, endSwitch_norm, endSwitch_ret, endSwitch_panic, sp_mb, sp_node, sp_s, sp_errors, sp_miniquery, sp_xstrings, sp_strings, sp_sql, sin_at (g0 := g0) (m := m) (e := e), sin_m (Z := Z) (g0 := g0) (m := m) (e := e), sin_e (Z := Z) (g0 := g0) (m := m) (e := e), sin_pute (Z := Z) (g0 := g0) (m := m) (e := e), sin_in, fits_put, fits_write, fits_join, hf, hz, I, write_write, ss_WriteString (Z := Z), sl_WriteString (Z := Z), same_sErr, svisit, sqOut, SRes.also, SRes.andThen, execSwitch, execFrom, anySame, scase_between, sq_LeftBetween, sq_OpBetween, sq_ParamsBetween, ho', hm, vc_lo, vc_ro, sg_GTE, sg_LTE, sg_LT, sg_GT, sg_NotBetween, ss_WriteOp (Z := Z), hw1, hw2, hw3, hw4, hf, hw, R1, e1, F1, I1, R2, e2, F2, I2, R3, e3, F3, I3, R4, e4, hw]
            · simp [svisit, hm, SFits, SRes.andThen, hw, e1, e2, e3, e4]
          | err er4 mb4 =>
            rw [e4] at R4 F4
            simp only [SFits] at F4
            refine ⟨⟨g4.put e (sErrVal er4), skeeps_put I4.keeps I4.e0 _, ?_⟩, ?_⟩
            · gorun [sLocals, sVisitAt, safter_norm, safter_ret, safter_panic, endSwitch_norm, endSwitch_ret, endSwitch_panic, sp_mb, sp_node, sp_s, sp_errors, sp_miniquery, sp_xstrings, sp_strings, sp_sql, sin_at (g0 := g0) (m := m) (e := e), sin_m (Z := Z) (g0 := g0) (m := m) (e := e), sin_e (Z := Z) (g0 := g0) (m := m) (e := e), sin_pute (Z := Z) (g0 := g0) (m := m) (e := e), sin_in, fits_put, fits_write, fits_join, hf, hz, I, write_write, ss_WriteString (Z := Z), sl_WriteString (Z := Z), same_sErr, svisit, sqOut, SRes.also, SRes.andThen, execSwitch, execFrom, anySame, scase_between, sq_LeftBetween, sq_OpBetween, sq_ParamsBetween, ho', hm, vc_lo, vc_ro, sg_GTE, sg_LTE, sg_LT, sg_GT, sg_NotBetween, ss_WriteOp (Z := Z), hw1, hw2, hw3, hw4, hf, hw, R1, e1, F1, I1, R2, e2, F2, I2, R3, e3, F3, I3, R4, e4, hw, F4, I4]
            · simp [svisit, hm, SFits, SRes.andThen, hw, e1, e2, e3, e4, F4]
          | ok mb4 =>
            rw [e4] at R4 F4
            simp only [SFits] at F4
            refine ⟨⟨g4.put e .nil, skeeps_put I4.keeps I4.e0 _, ?_⟩, ?_⟩
            · gorun [sLocals, sVisitAt, safter_norm, safter_ret, safter_panic, endSwitch_norm, endSwitch_ret, endSwitch_panic, sp_mb, sp_node, sp_s, sp_errors, sp_miniquery, sp_xstrings, sp_strings, sp_sql, sin_at (g0 := g0) (m := m) (e := e), sin_m (Z := Z) (g0 := g0) (m := m) (e := e), sin_e (Z := Z) (g0 := g0) (m := m) (e := e), sin_pute (Z := Z) (g0 := g0) (m := m) (e := e), sin_in, fits_put, fits_write, fits_join, hf, hz, I, write_write, ss_WriteString (Z := Z), sl_WriteString (Z := Z), same_sErr, svisit, sqOut, SRes.also, SRes.andThen, execSwitch, execFrom, anySame, scase_between, sq_LeftBetween, sq_OpBetween, sq_ParamsBetween, ho', hm, vc_lo, vc_ro, sg_GTE, sg_LTE, sg_LT, sg_GT, sg_NotBetween, ss_WriteOp (Z := Z), hw1, hw2, hw3, hw4, hf, hw, R1, e1, F1, I1, R2, e2, F2, I2, R3, e3, F3, I3, R4, e4, F4, I4, hw]
            · simp [svisit, hm, SFits, SRes.andThen, hw, e1, e2, e3, e4, F4]

set_option maxHeartbeats 1000000 in
theorem sv_date (l) (I : SIn Z S g0 m e g) (hf : Fits S mb) (hz : g.mem e = .nil) (ih : SBelow Q N D p Z S k (n + 2) kk) (hl : lvl (.func c!"date" l) ≤ kk) (hc : ∀ x ∈ l, Complete x) :
    SDone S g0 (sVisitAt (sqCall Q N D p k (n + 2)) 5 scase_function (sLocals S m e (.func c!"date" l)) (sHeap S mb g)) (svisit (senv p Z.G (!S.dis)) S.node (.func c!"date" l) mb) := by
  cases l with
  | nil =>
    refine ⟨⟨g, I.keeps, ?_⟩, ?_⟩
    · gorun [sLocals, sVisitAt, safter_norm, safter_ret, safter_panic, endSwitch_norm, endSwitch_ret, endSwitch_panic, sp_mb, sp_node, sp_s, sp_errors, sp_miniquery, sp_xstrings, sp_strings, sp_sql, sin_at (g0 := g0) (m := m) (e := e), sin_m (Z := Z) (g0 := g0) (m := m) (e := e), sin_e (Z := Z) (g0 := g0) (m := m) (e := e), sin_pute (Z := Z) (g0 := g0) (m := m) (e := e), sin_in, fits_put, fits_write, fits_join, hf, hz, I, write_write, ss_WriteString (Z := Z), sl_WriteString (Z := Z), same_sErr, svisit, sqOut, SRes.also, SRes.andThen, execSwitch, execFrom, anySame, scase_function, sq_NameFunc, sq_ParamsFunc, nodeVals, svisit1, ss_visit (Z := Z)]
    · simp [svisit, svisit1, SRes.also, SFits]
  | cons x l =>
    simp only [lvl, lvls] at hl
    obtain ⟨⟨g1, K1, R⟩, F⟩ := ih x (by omega) (hc x (by simp)) g (mb.write c!"DATE(") I.at_ (by rw [fits_write]; exact hf)
    have I1 := I.keep K1
    cases er : svisit (senv p Z.G (!S.dis)) S.node x (mb.write c!"DATE(") with
    | panic =>
      rw [er] at R F
      refine ⟨⟨g, I.keeps, ?_⟩, ?_⟩
      · gorun [sLocals, sVisitAt, safter_norm, safter_ret, safter_panic, endSwitch_norm, endSwitch_ret, endSwitch_panic, sp_mb, sp_node, sp_s, sp_errors, sp_miniquery, sp_xstrings, sp_strings, sp_sql, sin_at (g0 := g0) (m := m) (e := e), sin_m (Z := Z) (g0 := g0) (m := m) (e := e), sin_e (Z := Z) (g0 := g0) (m := m) (e := e), sin_pute (Z := Z) (g0 := g0) (m := m) (e := e), sin_in, fits_put, fits_write, fits_join, hf, hz, I, write_write, ss_WriteString (Z := Z), sl_WriteString (Z := Z), same_sErr, svisit, sqOut, SRes.also, SRes.andThen, execSwitch, execFrom, anySame, scase_function, sq_NameFunc, sq_ParamsFunc, nodeVals, svisit1, ss_visit (Z := Z), R, er]
      · simp [svisit, svisit1, er, SRes.also, SFits]
    | ok mb1 =>
      rw [er] at R F
      simp only [SFits] at F
      refine ⟨⟨g1.put e .nil, skeeps_put I1.keeps I1.e0 _, ?_⟩, ?_⟩
      · gorun [sLocals, sVisitAt, safter_norm, safter_ret, safter_panic, endSwitch_norm, endSwitch_ret, endSwitch_panic, sp_mb, sp_node, sp_s, sp_errors, sp_miniquery, sp_xstrings, sp_strings, sp_sql, sin_at (g0 := g0) (m := m) (e := e), sin_m (Z := Z) (g0 := g0) (m := m) (e := e), sin_e (Z := Z) (g0 := g0) (m := m) (e := e), sin_pute (Z := Z) (g0 := g0) (m := m) (e := e), sin_in, fits_put, fits_write, fits_join, hf, hz, I, write_write, ss_WriteString (Z := Z), sl_WriteString (Z := Z), same_sErr, svisit, sqOut, SRes.also, SRes.andThen, execSwitch, execFrom, anySame, scase_function, sq_NameFunc, sq_ParamsFunc, nodeVals, svisit1, ss_visit (Z := Z), R, er, F, I1]
      · simp [svisit, svisit1, er, SRes.also, SFits, fits_write, F]
    | err e1 mb1 =>
      rw [er] at R F
      simp only [SFits] at F
      refine ⟨⟨g1.put e (sErrVal e1), skeeps_put I1.keeps I1.e0 _, ?_⟩, ?_⟩
      · gorun [sLocals, sVisitAt, safter_norm, safter_ret, safter_panic, endSwitch_norm, endSwitch_ret, endSwitch_panic, sp_mb, sp_node, sp_s, sp_errors, sp_miniquery, sp_xstrings, sp_strings, sp_sql, sin_at (g0 := g0) (m := m) (e := e), sin_m (Z := Z) (g0 := g0) (m := m) (e := e), sin_e (Z := Z) (g0 := g0) (m := m) (e := e), sin_pute (Z := Z) (g0 := g0) (m := m) (e := e), sin_in, fits_put, fits_write, fits_join, hf, hz, I, write_write, ss_WriteString (Z := Z), sl_WriteString (Z := Z), same_sErr, svisit, sqOut, SRes.also, SRes.andThen, execSwitch, execFrom, anySame, scase_function, sq_NameFunc, sq_ParamsFunc, nodeVals, svisit1, ss_visit (Z := Z), R, er, F, I1]
      · simp [svisit, svisit1, er, SRes.also, SFits, fits_write, F]

set_option maxHeartbeats 1000000 in
theorem sv_unknown (f l) (I : SIn Z S g0 m e g) (hf : Fits S mb) (hz : g.mem e = .nil) (h1 : f ≠ c!"date") (h2 : f ≠ c!"has_edge") :
    SDone S g0 (sVisitAt (sqCall Q N D p k (n + 2)) 5 scase_function (sLocals S m e (.func f l)) (sHeap S mb g)) (svisit (senv p Z.G (!S.dis)) S.node (.func f l) mb) := by
  refine ⟨⟨g.put e (sErrVal (.unsupported f)), skeeps_put I.keeps I.e0 _, ?_⟩, ?_⟩
  · gorun [sLocals, sVisitAt, safter_norm, safter_ret, safter_panic, endSwitch_norm, endSwitch_ret, endSwitch_panic, sp_mb, sp_node, sp_s, sp_errors, sp_miniquery, sp_xstrings, sp_strings, sp_sql, sin_at (g0 := g0) (m := m) (e := e), sin_m (Z := Z) (g0 := g0) (m := m) (e := e), sin_e (Z := Z) (g0 := g0) (m := m) (e := e), sin_pute (Z := Z) (g0 := g0) (m := m) (e := e), sin_in, fits_put, fits_write, fits_join, hf, hz, I, write_write, ss_WriteString (Z := Z), sl_WriteString (Z := Z), same_sErr, svisit, sqOut, SRes.also, SRes.andThen, execSwitch, execFrom, anySame, scase_function, sq_NameFunc, h1, h2, sg_Errorf, sl_Errorf, sErrVal]
  · simp [svisit, h1, h2, SFits, hf]

end Verif.Mini
