import Verif.Lemmas.MisuseReuse

/-
Sessions that repeat, in the shake-permute ciphers: what the hash object absorbs differs from the first block on.
-/

namespace Aiootp.Secrecy

open Oracle Cipher Perm

variable {K : Nat}

theorem twin_block {c : Sizes} (hacc : Accepted c) (hle : c.innerHeaderBytes ≤ c.blocksize) {r r' : Request} (hv : r.Valid c) (hv' : r'.Valid c) (ht : r.FirstTwin c r') :
    ∃ b bs bs', plainBlocks c r = b :: bs ∧ plainBlocks c r' = b :: bs' := by
  have form : ∀ {r : Request}, r.Valid c → ∃ y bs, c.endPadding r.draws.extra r.data.length = .ok y ∧ plainBlocks c r = (headerOf c r ++ (r.data ++ y).take (c.blocksize - c.innerHeaderBytes)) :: bs := by
    intro r hv
    obtain ⟨padded, hp, hb, hne, hbl, _⟩ := plainBlocks_spec hacc hv
    have hd := hv.draws
    have hst : c.startPadding r.draws.reading r.draws.sivKey = .ok (headerOf c r) := Sizes.startPadding_ok.2 ⟨hd.reading_nonneg, hd.reading_lt, rfl⟩
    unfold Sizes.padPlaintext at hp
    rw [hst] at hp
    simp only [bind_eq_ok, pure, Except.pure, Except.ok.injEq] at hp
    obtain ⟨x, rfl, y, hy, rfl⟩ := hp
    have hpne : headerOf c r ++ r.data ++ y ≠ [] := by
      intro e
      rw [hb, e] at hne
      exact hne (by simp [Text.batch])
    refine ⟨y, Text.batch c.blocksize ((headerOf c r ++ r.data ++ y).drop c.blocksize), hy, ?_⟩
    rw [hb, Text.batch_cons hpne hacc.blocksize_pos, List.append_assoc, List.take_append, length_headerOf hv, List.take_of_length_le (by rw [length_headerOf hv]; exact hle)]
  obtain ⟨y, bs, h1, h2⟩ := form hv
  obtain ⟨y', bs', h3, h4⟩ := form hv'
  rw [ht.extra, ht.size, h3, Except.ok.injEq] at h1
  subst h1
  refine ⟨_, bs, bs', h2, ?_⟩
  rw [h4, headerOf_stamp ht.stamp, List.take_append, List.take_append, ht.start, ht.size]

theorem later_apart {c : Sizes} (hs : c.saltBytes < 256 ^ 4) (hi : c.ivBytes < 256 ^ 4) {k : KdfConfig} (hk : k.WF) {r r' : Request} (hv : r.Valid c) (hv' : r'.Valid c)
    (hl : r'.key.length = r.key.length) {x x' : Bytes} (hx : x.length = x'.length) (hne : r'.nonce = r.nonce → x ≠ x') (w w' : Bytes) :
    sessionOf k r ++ x ++ w ≠ sessionOf k r' ++ x' ++ w' := by
  intro e
  by_cases hn : r'.nonce = r.nonce
  · rw [sessionOf_nonce hn, List.append_assoc, List.append_assoc, List.append_cancel_left_eq] at e
    exact hne hn (List.append_inj e hx).1
  · rw [List.append_assoc, List.append_assoc] at e
    exact sessions_apart hk hs hi hv hv' hl.symm (fun e => hn e.symm) _ _ e

/-- After the first block, all that is asked extends what was asked. -/
theorem permute_extends (c : Sizes) {perm : Chain} {M : Bytes} : ∀ (bs : List Bytes) (m p : Bytes) (a : Digest K), m ∈ extending M →
    (rest c (permuteStep c) perm bs m p a ()).AllIn (extending M)
  | [], _, _, _, _ => trivial
  | b :: bs, m, p, a, hm => by
    have more : ∀ w, m ++ w ∈ extending M := by
      obtain ⟨v, rfl⟩ := hm
      exact fun w => ⟨v ++ w, by simp⟩
    exact ⟨more _, fun a' => Tree.AllIn.map (permute_extends c bs _ _ a' (more _))⟩

def permuteAfter (E : Env) (r : Request) (a : Digest K) : HashTree K Bytes :=
  (rest E.cfg (permuteStep E.cfg) (permFrom E E.cfg.blocksize a.1) (plainBlocks E.cfg r) (sessionOf E.shmacKdf r) (a.1.take E.cfg.shmacBlocksize) a ()).map
    fun x => x.1 ++ r.usedSalt ++ r.draws.iv ++ x.2.flatten

theorem permute_message (E : Env) (r : Request) :
    (message E.cfg (permuteStep E.cfg) (permFrom E E.cfg.blocksize) (sessionOf E.shmacKdf r) () r : HashTree K Bytes) = .ask (sessionOf E.shmacKdf r) (permuteAfter E r) := rfl

/-- What belongs to a message: what extends its first block. -/
def permutePart (E : Env) (r : Request) (_ : Unit) : Set Bytes := extending (sessionOf E.shmacKdf r ++ (plainBlocks E.cfg r).headD [])

section
variable {E : Env} (h : PermuteSetup E) (hK : E.cfg.primerKeyBytes (5 * E.cfg.blocksize) ≤ K) (hle : E.cfg.innerHeaderBytes ≤ E.cfg.blocksize)
include h hK

theorem permute_rest_same {r : Request} {b : Bytes} {bs bs' : List Bytes} (hl : bs'.length = bs.length)
    (hb : ∀ x ∈ b :: bs, x.length = E.cfg.blocksize) (hb' : ∀ x ∈ b :: bs', x.length = E.cfg.blocksize) (a : Digest K) :
    Tree.Same (· = ·)
      (rest E.cfg (permuteStep E.cfg) (permFrom E E.cfg.blocksize a.1) (b :: bs) (sessionOf E.shmacKdf r) (a.1.take E.cfg.shmacBlocksize) a ())
      (rest E.cfg (permuteStep E.cfg) (permFrom E E.cfg.blocksize a.1) (b :: bs') (sessionOf E.shmacKdf r) (a.1.take E.cfg.shmacBlocksize) a ()) := by
  have M := permute_machine h hK (sessionOf E.shmacKdf r)
  have h0 : exactly (sessionOf E.shmacKdf r) (E.cfg.shmacBlocksize * 0) (sessionOf E.shmacKdf r) := ⟨[], by simp, rfl⟩
  obtain ⟨hwf, hs⟩ := M.perm a
  let f := permuteX E.cfg (permFrom E E.cfg.blocksize a.1) (a.1.take E.cfg.shmacBlocksize) b
  let L : Bytes × List Bytes → Prop := fun o => (o.1.length = E.cfg.shmacBytes ∧ o.2.length = bs.length + 1 ∧ ∀ x ∈ o.2, x.length = E.cfg.blocksize) ∧ ∃ os, o.2 = f :: os
  have out : ∀ {bs' : List Bytes}, bs'.length = bs.length → (∀ x ∈ b :: bs', x.length = E.cfg.blocksize) →
      (rest E.cfg (permuteStep E.cfg) (permFrom E E.cfg.blocksize a.1) (b :: bs') (sessionOf E.shmacKdf r) (a.1.take E.cfg.shmacBlocksize) a ()).AllOut L := by
    intro bs' hl hb
    refine Tree.AllOut.and ((M.rest_out hwf hs (b :: bs') 0 _ _ a _ h0 (M.length_last a) hb).mono fun o ho => ⟨ho.1, by rw [ho.2.1, List.length_cons, hl], ho.2.2⟩) ?_
    exact fun a' => allOut_map (fun x => ⟨x.2, rfl⟩) _
  have ch : ∀ {bs' : List Bytes}, bs'.length = bs.length → (∀ x ∈ b :: bs', x.length = E.cfg.blocksize) → ∀ o : Bytes × List Bytes, L o →
      ((rest E.cfg (permuteStep E.cfg) (permFrom E E.cfg.blocksize a.1) (b :: bs') (sessionOf E.shmacKdf r) (a.1.take E.cfg.shmacBlocksize) a () : HashTree K _).map id).chance o =
      1 * (1 / 256 ^ (E.cfg.shmacBytes + E.cfg.blocksize * bs.length)) := by
    rintro bs' hl hb ⟨tag, _⟩ ⟨⟨o1, o2, o3⟩, os, rfl⟩
    simp only at o1 o2 o3
    rw [Tree.chance_map_cons (g := id) (x := (tag, f :: os)) (fun y => Iff.rfl)]
    rw [M.block_chance (r := 1 / 256 ^ (E.cfg.shmacBytes + E.cfg.blocksize * bs.length)) h0 hwf hs (M.length_last a) (hb b (by simp)) fun m' p' k' hi hp' => ?_]
    · congr 1
      exact if_pos rfl
    · rw [← hl]
      exact M.rest_chance hwf hs o1 bs' os 0 m' p' k' hi hp' (by rw [hl]; simpa using o2) (fun x hx => hb x (by simp [hx])) (fun x hx => o3 x (by simp [hx]))
  have key := Tree.Same.uniform (P := fun _ => True) (P' := fun _ => True) (L := L) (g := id) (g' := id) (r := 1 * (1 / 256 ^ (E.cfg.shmacBytes + E.cfg.blocksize * bs.length)))
    (mul_ne_zero one_ne_zero (one_div_ne_zero (pow256_ne _))) ((out rfl hb).mono fun o ho => ⟨trivial, ho⟩) ((out hl hb').mono fun o ho => ⟨trivial, ho⟩)
    (fun o ho => ch rfl hb o ho) (fun o ho => ch hl hb' o ho)
  exact key.mono fun x x' hx => hx.2.2

include hle

theorem permute_reuse : Reuse (K := K) (ε := Unit) E.cfg (sessionOf E.shmacKdf) (permuteAfter E)
    (fun r => {q | ∃ j, q ∈ under (sessionOf E.shmacKdf r) (E.cfg.shmacBlocksize * j)}) (permutePart E) (Request.FirstTwin E.cfg) 0 := by
  have u := h.usable
  have hB := h.permuteWF.block_pos
  refine ⟨le_refl _, fun {r} hv => ?_, fun {r r'} hv hv' ht => ?_, fun {r r' a} hv hv' ht => ?_, fun {r r' e} hv hv' hlen => ?_, fun {r a hist P g B} hv old hmac macs hB' hg => ?_⟩
  · have := (permute_scheme h hK).within hv
    rw [permute_message] at this
    exact this
  · exact sessionOf_nonce (congrArg Prod.fst ht.stamp)
  · have hn : r.nonce = r'.nonce := congrArg Prod.fst ht.stamp
    obtain ⟨b, bs, bs', hpb, hpb'⟩ := twin_block u.accepted hle hv hv' ht
    obtain ⟨_, _, _, _, hbl, hsz⟩ := plainBlocks_spec u.accepted hv
    obtain ⟨_, _, _, _, hbl', hsz'⟩ := plainBlocks_spec u.accepted hv'
    rw [show plainBlocks (permuteCipher E).cfg r = b :: bs from hpb] at hbl hsz
    rw [show plainBlocks (permuteCipher E).cfg r' = b :: bs' from hpb'] at hbl' hsz'
    have hlen : bs'.length = bs.length := by
      rw [ht.size] at hsz
      have := Nat.eq_of_mul_eq_mul_left u.accepted.blocksize_pos (hsz'.trans hsz.symm)
      simpa using this
    unfold permuteAfter
    rw [show plainBlocks E.cfg r = b :: bs from hpb, show plainBlocks E.cfg r' = b :: bs' from hpb', ← sessionOf_nonce (k := E.shmacKdf) hn]
    refine Tree.Same.bind (permute_rest_same h hK hlen hbl hbl' a) ?_
    rintro x _ rfl
    simp only [Request.nonce, Prod.mk.injEq] at hn
    exact Tree.Same.done (by rw [hn.2.1, hn.2.2.2])
  · obtain ⟨b, bs, hpb, _⟩ := first_block u.accepted hle hv'
    obtain ⟨_, _, _, _, hbl, _⟩ := plainBlocks_spec u.accepted hv'
    rw [show plainBlocks (permuteCipher E).cfg r' = b :: bs from hpb] at hbl
    have hb := hbl b (by simp)
    rintro ⟨w, e'⟩
    rw [show plainBlocks E.cfg r' = b :: bs from hpb, List.headD_cons] at e'
    by_cases hn : r'.nonce = r.nonce
    · rw [sessionOf_nonce hn] at e'
      have := congrArg List.length e'
      simp only [List.length_append] at this
      have : b.length = E.cfg.blocksize := hb
      omega
    · refine sessions_apart u.env.kdf h.salt_lt h.iv_lt hv hv' hlen.symm (fun e => hn e.symm) [] (b ++ w) ?_
      rw [List.append_nil, ← List.append_assoc]
      exact e'
  · obtain ⟨b, bs, hpb, hhead⟩ := first_block u.accepted hle hv
    obtain ⟨_, _, _, _, hbl, _⟩ := plainBlocks_spec u.accepted hv
    have hpb : plainBlocks E.cfg r = b :: bs := hpb
    rw [show plainBlocks (permuteCipher E).cfg r = b :: bs from hpb] at hbl
    have hb : b.length = E.cfg.blocksize := hbl b (by simp)
    have within : (permuteAfter E r a).AllIn (permutePart E r ()) := by
      unfold permuteAfter permutePart
      rw [hpb, List.headD_cons]
      have start : ∀ w v, sessionOf E.shmacKdf r ++ (b ++ w ++ v) ∈ extending (sessionOf E.shmacKdf r ++ b) := fun w v => ⟨w ++ v, by simp⟩
      refine Tree.AllIn.map (⟨start _ _, fun a' => Tree.AllIn.map (permute_extends _ bs _ _ a' (start _ _))⟩)
    have new : ∀ q ∈ permutePart E r (), q ∉ pastOf (permutePart E) P hist := by
      unfold permutePart
      rw [hpb, List.headD_cons]
      rintro q ⟨w, rfl⟩ (hq | ⟨⟨r', _⟩, hx, w', e⟩)
      · obtain ⟨r', hv', hl, e⟩ := macs _ hq
        by_cases hn : r'.nonce = r.nonce
        · rw [sessionOf_nonce hn] at e
          have := congrArg List.length e
          simp only [List.length_append] at this
          omega
        · refine sessions_apart u.env.kdf h.salt_lt h.iv_lt hv hv' hl.symm (fun e => hn e.symm) (b ++ w) [] ?_
          rw [← List.append_assoc, List.append_nil]
          exact e
      · obtain ⟨hv', hl, hs⟩ := old _ hx
        simp only at hv' hl hs e
        obtain ⟨b', bs', hpb', hhead'⟩ := first_block u.accepted hle hv'
        obtain ⟨_, _, _, _, hbl', _⟩ := plainBlocks_spec u.accepted hv'
        rw [show plainBlocks (permuteCipher E).cfg r' = b' :: bs' from hpb'] at hbl'
        rw [show plainBlocks E.cfg r' = b' :: bs' from hpb', List.headD_cons] at e
        refine later_apart h.salt_lt h.iv_lt u.env.kdf hv hv' hl (hb.trans (hbl' b' (by simp)).symm) (fun hn hbb => ?_) w w' e
        refine headerOf_inj hv hv' hn.symm (fun e => hs e.symm) ?_
        rw [← show b.take E.cfg.innerHeaderBytes = headerOf E.cfg r from hhead, ← show b'.take E.cfg.innerHeaderBytes = headerOf E.cfg r' from hhead', hbb]
    have M := permute_machine (K := K) h hK (sessionOf E.shmacKdf r)
    have h0 : exactly (sessionOf E.shmacKdf r) (E.cfg.shmacBlocksize * 0) (sessionOf E.shmacKdf r) := ⟨[], by simp, rfl⟩
    obtain ⟨hwf, hs⟩ := M.perm a
    have hf : (permuteAfter E r a).Fresh ∅ := by
      unfold permuteAfter
      rw [hpb]
      exact ((M.rest_fresh (S := ∅) hwf hs (by simp) (b :: bs) 0 (sessionOf E.shmacKdf r) (a.1.take E.cfg.shmacBlocksize) a _ h0 (M.length_last a) hbl).map).mono (Set.empty_subset _)
    have fr := hf.union (S' := pastOf (permutePart E) P hist) new within
    rw [mul_zero, zero_add]
    refine Tree.dirty_bind (P := fun _ => True) (U := permutePart E r ()) hB' (fr.mono ?_) within ?_ fun x _ => (Tree.dirty_mono _ ?_).trans (hg () x)
    · exact fun q hq => .inl hq
    · generalize permuteAfter E r a = t
      induction t with
      | done => trivial
      | ask _ _ ih => exact ih
    · rintro q ((hq | ⟨x, hx, hq⟩) | hq)
      · exact .inl hq
      · exact .inr ⟨x, List.mem_cons_of_mem _ hx, hq⟩
      · exact .inr ⟨_, List.mem_cons_self, hq⟩

end

end Aiootp.Secrecy
