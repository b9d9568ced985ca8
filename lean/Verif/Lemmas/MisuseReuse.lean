import Verif.Lemmas.MisuseDual

/-
How likely it is that two messages of one session get the same key stream.
-/

namespace Aiootp.Secrecy

open Oracle Cipher Perm

variable {K : Nat}

section
variable {E : DualEnv} (h : DualSetup E) (hsep : Separated E E.cfg.shmacBlocksize) (hK : E.cfg.primerKeyBytes (5 * E.cfg.innerHeaderBytes) ≤ K)
  (hl : ∀ k, k.length = E.cfg.shmacDoubleBlocksize → E.leftSlice k = evens k)
  (hr : ∀ k, k.length = E.cfg.shmacDoubleBlocksize → E.rightSlice k = odds k)

include h hK

theorem dual_wide : 2 * E.cfg.shmacBlocksize ≤ K := by
  obtain ⟨p1, p2⟩ := primer_ge (i := E.cfg.innerHeaderBytes) (E := E.toEnv) h.usable.env
  omega

omit hK in
/-- What the sides get from the digest of the header. -/
theorem side_lengths (hwide : 2 * E.cfg.shmacBlocksize ≤ K) (a : Digest K) : (evens (a.1.take E.cfg.shmacDoubleBlocksize)).length = E.cfg.shmacBlocksize ∧
    (odds (a.1.take E.cfg.shmacDoubleBlocksize)).length = E.cfg.shmacBlocksize := by
  have := a.2
  have hdb : E.cfg.shmacDoubleBlocksize = 2 * E.cfg.shmacBlocksize := rfl
  rw [length_evens, length_odds, List.length_take]
  omega

def sidesOf (E : DualEnv) (hwide : ∀ a : Digest K, (evens (a.1.take E.cfg.shmacDoubleBlocksize)).length = E.cfg.shmacBlocksize ∧
    (odds (a.1.take E.cfg.shmacDoubleBlocksize)).length = E.cfg.shmacBlocksize) (a : Digest K) : Digest E.cfg.shmacBlocksize × Digest E.cfg.shmacBlocksize :=
  (⟨evens (a.1.take E.cfg.shmacDoubleBlocksize), (hwide a).1⟩, ⟨odds (a.1.take E.cfg.shmacDoubleBlocksize), (hwide a).2⟩)

include hsep hl hr

/-- A message after the first digest of its session: the question for the digest of the header, and then questions that belong to its answer. -/
theorem dual_after_form {r : Request} (hv : r.Valid E.cfg) (a0 : Digest K)
    (hwide : ∀ a : Digest K, (evens (a.1.take E.cfg.shmacDoubleBlocksize)).length = E.cfg.shmacBlocksize ∧ (odds (a.1.take E.cfg.shmacDoubleBlocksize)).length = E.cfg.shmacBlocksize) :
    ∃ w body, dualAfter E r a0 = .ask (sessionOf E.shmacKdf r ++ headerOf E.cfg r ++ w) body ∧
      ∀ a, (body a).Fresh {sessionOf E.shmacKdf r ++ headerOf E.cfg r ++ w} ∧ (body a).AllIn (dualPart E r (sidesOf E hwide a)) := by
  have u := h.usable
  obtain ⟨b, bs, hpb, hhead⟩ := first_block u.accepted h.wf.header_le hv
  obtain ⟨_, _, _, _, hbl, _⟩ := plainBlocks_spec u.accepted hv
  rw [show plainBlocks (dualCipher E).cfg r = b :: bs from hpb] at hbl
  obtain ⟨a1, a2, a3⟩ := dual_apart h hsep hv hv
  have M := dual_machine (K := K) h hsep.bytes hsep.pos hK a1 a2 a3
  have h0 : DualInv E E.cfg.shmacBlocksize (sessionOf E.shmacKdf r) (sessionOf E.leftKdf r) (sessionOf E.rightKdf r) 0 (sessionOf E.shmacKdf r)
      ⟨sessionOf E.leftKdf r, sessionOf E.rightKdf r, false⟩ := ⟨rfl, ⟨[], by simp, rfl⟩, ⟨[], by simp, rfl⟩, ⟨[], by simp, rfl⟩⟩
  obtain ⟨hwf, hs⟩ := M.perm a0
  have hf := M.rest_fresh (S := ∅) hwf hs (by simp) (b :: bs) 0 (sessionOf E.shmacKdf r) (a0.1.take E.cfg.shmacBlocksize) a0 _ h0 (M.length_last a0) hbl
  have hq : sessionOf E.shmacKdf r ++ sivBytes E (a0.1.take E.cfg.shmacBlocksize) (b.take E.cfg.innerHeaderBytes) (dualMask E.cfg (permFrom E.toEnv E.cfg.innerHeaderBytes a0.1) b) =
      sessionOf E.shmacKdf r ++ headerOf E.cfg r ++
        (dualMask E.cfg (permFrom E.toEnv E.cfg.innerHeaderBytes a0.1) b ++ E.cfg.sivDigestSlice.of (a0.1.take E.cfg.shmacBlocksize)) := by
    rw [sivBytes, show b.take E.cfg.innerHeaderBytes = headerOf E.cfg r from hhead]
    simp only [List.append_assoc]
  have e : dualAfter E r a0 = ((rest E.cfg (dualStep E) (permFrom E.toEnv E.cfg.innerHeaderBytes a0.1) (b :: bs) (sessionOf E.shmacKdf r) (a0.1.take E.cfg.shmacBlocksize) a0
      ⟨sessionOf E.leftKdf r, sessionOf E.rightKdf r, false⟩).map fun x => x.1 ++ r.usedSalt ++ r.draws.iv ++ x.2.flatten) := by
    unfold dualAfter
    rw [show plainBlocks E.cfg r = b :: bs from hpb]
  refine ⟨_, _, by rw [e, ← hq]; rfl, fun a => ⟨?_, ?_⟩⟩
  · rw [← hq]
    have := (hf.map (g := fun x => x.1 ++ r.usedSalt ++ r.draws.iv ++ x.2.flatten)).2 a
    refine Tree.Fresh.mono ?_ this
    rintro q rfl
    exact .inl rfl
  · have hlen : (a.1.take E.cfg.shmacDoubleBlocksize).length = E.cfg.shmacDoubleBlocksize := by
      have := a.2
      have hdb : E.cfg.shmacDoubleBlocksize = 2 * E.cfg.shmacBlocksize := rfl
      have := dual_wide h hK
      rw [List.length_take]
      omega
    have el : sessionOf E.leftKdf r ++ E.leftSlice (a.1.take E.cfg.shmacDoubleBlocksize) = sessionOf E.leftKdf r ++ evens (a.1.take E.cfg.shmacDoubleBlocksize) := by rw [hl _ hlen]
    have er : sessionOf E.rightKdf r ++ E.rightSlice (a.1.take E.cfg.shmacDoubleBlocksize) = sessionOf E.rightKdf r ++ odds (a.1.take E.cfg.shmacDoubleBlocksize) := by rw [hr _ hlen]
    have hm : ∀ w, sessionOf E.shmacKdf r ++ sivBytes E (a0.1.take E.cfg.shmacBlocksize) (b.take E.cfg.innerHeaderBytes) (dualMask E.cfg (permFrom E.toEnv E.cfg.innerHeaderBytes a0.1) b) ++ w ∈
        extending (sessionOf E.shmacKdf r ++ headerOf E.cfg r) := fun w => by
      rw [hq, List.append_assoc]; exact ⟨_, rfl⟩
    refine ⟨.inr (.inl ?_), fun al => ⟨.inr (.inr ?_), fun ar => ⟨.inl (hm _), fun a' => Tree.AllIn.map (Tree.AllIn.map ?_)⟩⟩⟩
    · exact ⟨[], by rw [List.append_nil]; exact el⟩
    · exact ⟨[], by rw [List.append_nil]; exact er⟩
    · exact rest_extends E bs _ _ a' _ rfl (hm _) ⟨[], by rw [List.append_nil]; exact el⟩ ⟨[], by rw [List.append_nil]; exact er⟩

omit hsep hl hr in
open Classical in
/-- The chance that a side gets the same from a digest as for a message before. -/
theorem avg_again (hwide : ∀ a : Digest K, (evens (a.1.take E.cfg.shmacDoubleBlocksize)).length = E.cfg.shmacBlocksize ∧
    (odds (a.1.take E.cfg.shmacDoubleBlocksize)).length = E.cfg.shmacBlocksize) :
    ∀ hist : List (Request × (Digest E.cfg.shmacBlocksize × Digest E.cfg.shmacBlocksize)),
      (∑ a : Digest K, if ∃ x ∈ hist, x.2.1 = (sidesOf E hwide a).1 ∨ x.2.2 = (sidesOf E hwide a).2 then (1 : ℚ) else 0) / Fintype.card (Digest K) ≤
        hist.length * (2 / 256 ^ E.cfg.shmacBlocksize)
  | [] => by simp
  | x :: hist => by
    have ih := avg_again hwide hist
    have w := dual_wide h hK
    have e1 := avg_evens w x.2.1.2
    have e2 := avg_odds w x.2.2.2
    have step : (∑ a : Digest K, if ∃ y ∈ x :: hist, y.2.1 = (sidesOf E hwide a).1 ∨ y.2.2 = (sidesOf E hwide a).2 then (1 : ℚ) else 0) / Fintype.card (Digest K) ≤
        (∑ a : Digest K, ((if evens (a.1.take (2 * E.cfg.shmacBlocksize)) = x.2.1.1 then (1 : ℚ) else 0) + (if odds (a.1.take (2 * E.cfg.shmacBlocksize)) = x.2.2.1 then (1 : ℚ) else 0) +
          if ∃ y ∈ hist, y.2.1 = (sidesOf E hwide a).1 ∨ y.2.2 = (sidesOf E hwide a).2 then (1 : ℚ) else 0)) / Fintype.card (Digest K) := by
      refine Tree.avg_mono fun a => ?_
      have n1 : (0 : ℚ) ≤ if evens (a.1.take (2 * E.cfg.shmacBlocksize)) = x.2.1.1 then (1 : ℚ) else 0 := by split <;> norm_num
      have n2 : (0 : ℚ) ≤ if odds (a.1.take (2 * E.cfg.shmacBlocksize)) = x.2.2.1 then (1 : ℚ) else 0 := by split <;> norm_num
      have n3 : (0 : ℚ) ≤ if ∃ y ∈ hist, y.2.1 = (sidesOf E hwide a).1 ∨ y.2.2 = (sidesOf E hwide a).2 then (1 : ℚ) else 0 := by split <;> norm_num
      by_cases hex : ∃ y ∈ x :: hist, y.2.1 = (sidesOf E hwide a).1 ∨ y.2.2 = (sidesOf E hwide a).2
      · rw [if_pos hex]
        obtain ⟨y, hy, hor⟩ := hex
        rcases List.mem_cons.1 hy with rfl | hy
        · rcases hor with e | e
          · have n4 : (if evens (a.1.take (2 * E.cfg.shmacBlocksize)) = y.2.1.1 then (1 : ℚ) else 0) = 1 := if_pos (congrArg Subtype.val e).symm
            linarith
          · have n4 : (if odds (a.1.take (2 * E.cfg.shmacBlocksize)) = y.2.2.1 then (1 : ℚ) else 0) = 1 := if_pos (congrArg Subtype.val e).symm
            linarith
        · have n4 : (if ∃ y ∈ hist, y.2.1 = (sidesOf E hwide a).1 ∨ y.2.2 = (sidesOf E hwide a).2 then (1 : ℚ) else 0) = 1 := if_pos ⟨y, hy, hor⟩
          linarith
      · rw [if_neg hex]; linarith
    rw [Finset.sum_add_distrib, Finset.sum_add_distrib, add_div, add_div, e1, e2] at step
    refine step.trans ?_
    rw [List.length_cons]
    push_cast
    have : ((hist.length : ℚ) + 1) * (2 / 256 ^ E.cfg.shmacBlocksize) = 1 / 256 ^ E.cfg.shmacBlocksize + 1 / 256 ^ E.cfg.shmacBlocksize + hist.length * (2 / 256 ^ E.cfg.shmacBlocksize) := by ring
    rw [this]
    linarith

theorem dual_reuse : Reuse (K := K) (ε := Digest E.cfg.shmacBlocksize × Digest E.cfg.shmacBlocksize) E.cfg (sessionOf E.shmacKdf) (dualAfter E)
    (fun r => {q | ∃ j, q ∈ dualPast E E.cfg.shmacBlocksize (sessionOf E.shmacKdf r) (sessionOf E.leftKdf r) (sessionOf E.rightKdf r) j}) (dualPart (n := E.cfg.shmacBlocksize) E) Request.Twin
    (2 / 256 ^ E.cfg.shmacBlocksize) := by
  have u := h.usable
  have hwide := side_lengths h (dual_wide h hK)
  refine ⟨by positivity, fun {r} hv => ?_, fun {r r'} hv hv' ht => ?_, fun {r r' a} hv hv' ht => ?_, fun {r r' e} hv hv' hlen => ?_, fun {r a hist P g B} hv old hmac macs hB hg => ?_⟩
  · have := (dual_scheme h hsep hK).within hv
    rw [dual_message] at this
    exact this
  · have := congrArg Prod.fst ht.stamp
    exact sessionOf_nonce this
  · have hn : r.nonce = r'.nonce := congrArg Prod.fst ht.stamp
    obtain ⟨b, bs, hpb, hhead⟩ := first_block u.accepted h.wf.header_le hv
    obtain ⟨b', bs', hpb', hhead'⟩ := first_block u.accepted h.wf.header_le hv'
    obtain ⟨_, _, _, _, hbl, hsz⟩ := plainBlocks_spec u.accepted hv
    obtain ⟨_, _, _, _, hbl', hsz'⟩ := plainBlocks_spec u.accepted hv'
    rw [hpb] at hbl hsz
    rw [hpb'] at hbl' hsz'
    have hlen : bs'.length = bs.length := by
      rw [ht.size] at hsz
      have := Nat.eq_of_mul_eq_mul_left u.accepted.blocksize_pos (hsz'.trans hsz.symm)
      simpa using this
    unfold dualAfter
    rw [show plainBlocks E.cfg r = b :: bs from hpb, show plainBlocks E.cfg r' = b' :: bs' from hpb', ← sessionOf_nonce (k := E.shmacKdf) hn, ← sessionOf_nonce (k := E.leftKdf) hn,
      ← sessionOf_nonce (k := E.rightKdf) hn]
    have hh : b'.take E.cfg.innerHeaderBytes = b.take E.cfg.innerHeaderBytes := hhead'.trans ((headerOf_stamp ht.stamp).symm.trans hhead.symm)
    refine Tree.Same.bind (dual_rest_same h hsep hK hv hlen hbl hbl' hh a) ?_
    rintro x _ rfl
    simp only [Request.nonce, Prod.mk.injEq] at hn
    exact Tree.Same.done (by rw [hn.2.1, hn.2.2.2])
  · have hpos := h.wf.header_pos
    rintro (⟨w, e'⟩ | ⟨w, e'⟩ | ⟨w, e'⟩)
    · by_cases hn : r'.nonce = r.nonce
      · rw [sessionOf_nonce hn] at e'
        have := congrArg List.length e'
        simp only [List.length_append, length_headerOf hv'] at this
        omega
      · refine sessions_apart u.env.kdf h.salt_lt h.iv_lt hv hv' hlen.symm (fun e => hn e.symm) [] (headerOf E.cfg r' ++ w) ?_
        rw [List.append_nil, ← List.append_assoc]
        exact e'
    · refine (dual_apart h hsep hv hv').1 [] (e.1.1 ++ w) ?_
      rw [List.append_nil, ← List.append_assoc]
      exact e'
    · refine (dual_apart h hsep hv hv').2.1 [] (e.2.1 ++ w) ?_
      rw [List.append_nil, ← List.append_assoc]
      exact e'
  · obtain ⟨w, body, e, hbody⟩ := dual_after_form h hsep hK hl hr hv a hwide
    obtain ⟨new1, new2⟩ := dual_new h hsep hv old macs
    rw [e, Tree.bind, Tree.dirty, if_neg (new1 w)]
    classical
    have each : ∀ a' : Digest K, ((body a').bind g).dirty (insert (sessionOf E.shmacKdf r ++ headerOf E.cfg r ++ w) (pastOf (dualPart E) P hist)) ≤
        (if ∃ x ∈ hist, x.2.1 = (sidesOf E hwide a').1 ∨ x.2.2 = (sidesOf E hwide a').2 then (1 : ℚ) else 0) + B := by
      intro a'
      by_cases hbad : ∃ x ∈ hist, x.2.1 = (sidesOf E hwide a').1 ∨ x.2.2 = (sidesOf E hwide a').2
      · rw [if_pos hbad]
        exact (Tree.dirty_le_one _ _).trans (by linarith)
      · rw [if_neg hbad, zero_add]
        obtain ⟨b1, b2⟩ := hbody a'
        have hd := new2 (sidesOf E hwide a') fun x hx => ⟨fun e => hbad ⟨x, hx, .inl e⟩, fun e => hbad ⟨x, hx, .inr e⟩⟩
        have fr := b1.union (S' := pastOf (dualPart E) P hist) hd b2
        refine Tree.dirty_bind (P := fun _ => True) (U := dualPart E r (sidesOf E hwide a')) hB (fr.mono ?_) b2 ?_ fun x _ => (Tree.dirty_mono _ ?_).trans (hg (sidesOf E hwide a') x)
        · rintro q (rfl | hq)
          · exact .inr rfl
          · exact .inl hq
        · generalize body a' = t
          induction t with
          | done => trivial
          | ask _ _ ih => exact ih
        · rintro q ((rfl | hq | ⟨x, hx, hq⟩) | hq)
          · exact .inr ⟨_, List.mem_cons_self, .inl ⟨w, rfl⟩⟩
          · exact .inl hq
          · exact .inr ⟨x, List.mem_cons_of_mem _ hx, hq⟩
          · exact .inr ⟨_, List.mem_cons_self, hq⟩
    refine (Tree.avg_mono each).trans ?_
    rw [Finset.sum_add_distrib, add_div, Finset.sum_const, nsmul_eq_mul, Finset.card_univ, mul_comm, mul_div_assoc, div_self (ne_of_gt Tree.card_pos'), mul_one]
    exact add_le_add (avg_again h hK hwide hist) (le_refl _)

end

end Aiootp.Secrecy
