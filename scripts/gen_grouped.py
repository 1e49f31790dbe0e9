#!/usr/bin/env python3
"""Grouped IEs against the tables of TS 29.274: lean/Verif/Props/Grouped.lean"""
import os
from gen_members import G, TY, DEF, kinds
HERE = os.path.dirname(os.path.abspath(__file__))
TAIL = '''
/-! ## Octets -/

/-- A bearer context without EPS bearer identity (here with a restart counter instead) is accepted, as bearer 0, which is sent on as such. -/
theorem C94_violation (m : Mode) :
    decoder m [93, 0, 5, 0, 3, 0, 1, 0, 7] = .ok [.BearerContext (expectedBearerContext 93 5 0 [])] ∧
    contents (.BearerContext (expectedBearerContext 93 5 0 [])) = [.Ebi ⟨73, 1, 0, 0⟩] ∧
    (IE.BearerContext (expectedBearerContext 93 5 0 [])).marshal = [93, 0, 5, 0, 73, 0, 1, 0, 0] := by
  refine ⟨?_, rfl, by decide +kernel⟩
  cases m <;> decide +kernel

/-- The metric of a load control IE is replaced by one of another instance. -/
theorem C94_violation_instance (m : Mode) :
    ∃ x, decoder m [181, 0, 18, 0, 183, 0, 4, 0, 0, 0, 0, 9, 182, 0, 1, 0, 50, 182, 0, 1, 1, 99] = .ok [.LoadControlInfo x] ∧
      x.load_metric = ⟨182, 1, 1, 99⟩ := by
  refine ⟨expectedLoadControl 181 18 0 [.Sqn ⟨183, 4, 0, 9⟩, .Metric ⟨182, 1, 0, 50⟩, .Metric ⟨182, 1, 1, 99⟩], ?_, rfl⟩
  cases m <;> decide +kernel

/-- The hypotheses of `C94_kept_partial` are met by a charging identity beside a bearer identity, which is then found in the value. -/
example : C 94 0 ∈ rows .BearerContext ∧ (Kind.BearerContext, C 94 0) ∉ lost ∧ (Kind.BearerContext, C 94 0) ∉ oneOnly ∧
    (C 94 0).At (.ChargingId ⟨94, 4, 0, 7⟩) ∧
    .ChargingId ⟨94, 4, 0, 7⟩ ∈ contents (built .BearerContext 93 13 0 [.Ebi ⟨73, 1, 0, 5⟩, .ChargingId ⟨94, 4, 0, 7⟩]) := by decide +kernel

/-- Of two relative capacities the last one stays. -/
example : contents (built .LoadControlInfo 181 27 0 [.Sqn ⟨183, 4, 0, 9⟩, .Metric ⟨182, 1, 0, 50⟩, .ApnRelativeCapacity ⟨184, 3, 0, 10, ['a']⟩,
    .ApnRelativeCapacity ⟨184, 3, 0, 20, ['b']⟩]) = [.Sqn ⟨183, 4, 0, 9⟩, .Metric ⟨182, 1, 0, 50⟩, .ApnRelativeCapacity ⟨184, 3, 0, 20, ['b']⟩] := by
  decide +kernel

/-- A PDN connection with an UP security policy: the policy is gone. -/
example : C 218 0 ∈ rows .PdnConnections ∧ (C 218 0).At (.UpSecurityPolicy ⟨218, 1, 0, .Required⟩) ∧
    .UpSecurityPolicy ⟨218, 1, 0, .Required⟩ ∉ contents (built .PdnConnections 109 5 0 [.UpSecurityPolicy ⟨218, 1, 0, .Required⟩]) := by decide +kernel
'''
VAR = {'LoadControl': 'LoadControlInfo'}
# rows: type, instances, must, several, field that keeps it (None: nowhere), comment
T = {
 'BearerContext': [(73, [0], 1, 0, 'ebi'), (2, [0], 0, 0, 'cause'), (84, [0], 0, 0, 'tft'), (87, list(range(12)), 0, 0, 'fteids'), (80, [0], 0, 0, 'bearer_qos'),
    (94, [0], 0, 0, 'charging_id'), (97, [0], 0, 0, 'bearer_flags'), (78, [0], 0, 0, 'pco'), (163, [0], 0, 0, 'apco'), (197, [0], 0, 0, 'epco'),
    (203, [0], 0, 0, 'max_packet_loss'), (172, [0], 0, 0, 'ran_nas_cause'), (118, [0], 0, 0, 'bss_container'), (137, [0], 0, 0, 'transaction_id'), (123, [0], 0, 0, None)],
 'LoadControl': [(183, [0], 1, 0, 'sqn'), (182, [0], 1, 0, 'load_metric'), (184, [0], 0, 1, 'list')],
 'OverloadControlInfo': [(183, [0], 1, 0, 'sqn'), (182, [0], 1, 0, 'metric'), (156, [0], 1, 0, 'validity'), (71, [0], 0, 1, 'list')],
 'RemoteUeContext': [(192, [0], 1, 0, 'user_id'), (193, [0], 0, 0, 'ue_ip')],
 'ScefPdnConnections': [(71, [0], 1, 0, 'apn'), (73, [0], 1, 0, 'default_ebi'), (176, [0], 1, 0, 'scef_id')],
 'PC5QosParameters': [(212, [0], 1, 1, 'pc5_qos_flows'), (211, [0], 0, 0, 'pc5_link_abrs')],
 'PgwChangeInfo': [(215, [0, 1], 0, 1, 'pgw_fqdns'), (74, [0, 1, 2, 3], 0, 1, 'sgw_pgw_smf_ips'), (132, [0], 0, 1, 'pgw_smf_fqcsid'), (216, [0, 1], 0, 1, 'groupids')],
 'PdnConnections': [(71, [0], 1, 0, 'apn'), (127, [0], 0, 0, 'apn_restriction'), (128, [0], 0, 0, 'selection_mode'), (74, [0], 0, 0, 'ipv4'), (74, [1], 0, 0, 'ipv6'),
    (73, [0], 1, 0, 'linked_ebi'), (87, [0], 1, 0, 'pgw_addr_control'), (136, [0], 0, 0, 'pgw_node_name'), (93, [0], 1, 1, 'bearer_ctxs'), (72, [0], 1, 0, 'apn_ambr'),
    (95, [0], 0, 0, 'charging_char'), (131, [0], 0, 0, 'change_reporting_action'), (146, [0], 0, 0, 'csg_info_reporting_action'), (165, [0], 0, 0, 'henb_info_reporting'),
    (77, [0], 0, 0, 'indication'), (157, [0], 0, 0, 'signalling_priority_indication'), (167, [0], 0, 0, 'change_to_report_flags'), (136, [1], 0, 0, 'local_home_network_id'),
    (177, [0], 0, 1, 'praa'), (185, [0], 0, 0, 'wlan_offloadability'), (191, [0], 0, 1, 'remote_ue_ctxs'), (99, [0], 0, 0, 'pdn_type'),
    (196, [0], 0, 0, 'hdr_compr_config'), (214, [0], 0, 0, None), (218, [0], 0, 0, None)],
 'V2xInformation': [(210, [0, 1], 0, 0, 'services_auth'), (211, [0, 1], 0, 0, 'sidelink_max_brs'), (209, [0], 0, 0, 'pc5_qos_params')],
}
TYPE = {}   # variant -> type octet, of the members
for g, rs in T.items():
    for ty, ii, mu, se, f in rs:
        if f:
            k = [x for x in G[g] if x[0] == f][0][2]
            assert TYPE.setdefault(k, ty) == ty, k
FIELDS = {g: {x[0]: (n, x) for n, x in enumerate(fs)} for g, fs in G.items()}
def row(ty, i, mu, se): return ('Ms' if mu and se else 'M' if mu else 'Cs' if se else 'C') + f' {ty} {i}'
def rowsof(g): return [(row(ty, i, mu, se), ty, i, mu, se, f) for ty, ii, mu, se, f in T[g] for i in ii]
lost = [(g, r) for g in T for r, ty, i, mu, se, f in rowsof(g) if f is None]
careless = [(g, r) for g in T for r, ty, i, mu, se, f in rowsof(g) if f and FIELDS[g][f][1][3] == 'any' and FIELDS[g][f][1][1] not in ('all', 'only')]
one = [(g, r) for g in T for r, ty, i, mu, se, f in rowsof(g) if f and se and FIELDS[g][f][1][1] != 'all']
V = lambda g: VAR.get(g, g)
o = ['''import Verif.Props.Members
import Verif.V2.Decoder

/-!
# Grouped IEs against the tables of TS 29.274 (C94)

Generated by `scripts/gen_grouped.py`. The tables of clause 7 for the contents of the grouped IEs, as far as the author knows them; a row that is
missing here is one that nothing is claimed about. A bearer context has a different table in every message; the rows are those of all of them.
-/

namespace Gtp.Props.Grouped
open Gtp.V2

private theorem ok_bind_inv {ε α β : Type} {x : R ε α} {f : α → R ε β} {y : β} (h : x >>= f = .ok y) : ∃ a, x = .ok a ∧ f a = .ok y := by
  cases x with
  | ok a => exact ⟨a, rfl, h⟩
  | err e => cases h
  | panic => cases h
  | diverge => cases h

/-- A row: type and instance of the member, whether it is mandatory, and whether several with this type and instance may be included. -/
structure Row where
  type : UInt8
  ins : UInt8
  must : Bool
  several : Bool
deriving DecidableEq, Repr

def M (t i : UInt8) : Row := ⟨t, i, true, false⟩
def Ms (t i : UInt8) : Row := ⟨t, i, true, true⟩
def C (t i : UInt8) : Row := ⟨t, i, false, false⟩
def Cs (t i : UInt8) : Row := ⟨t, i, false, true⟩

/-- The grouped IEs. -/
def grouped : List Kind := [''' + ', '.join('.' + V(g) for g in T) + ''']

/-- The tables of TS 29.274. -/
def rows : Kind → List Row''']
for g in T:
    rs = [r for r, *_ in rowsof(g)]
    o.append(f'  | .{V(g)} => [' + ', '.join(rs) + ']')
o.append('''  | _ => []

/-- The member belongs to the row. -/
def Row.At (r : Row) (y : IE) : Prop := y.kind = kindOf r.type ∧ y.ins = r.ins

instance (r : Row) (y : IE) : Decidable (r.At y) := inferInstanceAs (Decidable (_ ∧ _))

/-- All IEs that a value has in its fields, those that the encoder forgets included. -/
def contents : IE → List IE''')
def piece(g, f, h, k):
    if h in ('first', 'over'): return f'x.{f}.toList.map .{k}'
    if h == 'all': return f'x.{f}.map .{k}'
    if h in ('last', 'key'): return f'[.{k} x.{f}]'
    if h == 'only': return f'(x.{f}.getD []).map .{k}'
    return f'x.{f}.toList.map .' + {'pgw_change_info': 'PgwChangeInfo', 'up_security_policy': 'UpSecurityPolicy'}[f]
for g, fs in G.items():
    o.append(f'  | .{V(g)} x => List.flatten [' + ', '.join(piece(g, f, h, k) for f, h, k, c in fs) + ']')
o.append('''  | _ => []

/-- The value that the octets of the header and the members prescribe. -/
def built (k : Kind) (t : UInt8) (n : UInt16) (i : UInt8) (l : List IE) : IE :=
  match k with''')
for g in G: o.append(f'  | .{V(g)} => .{V(g)} (expected{g} t n i l)')
o.append('''  | _ => .Unknown ⟨t, n, i, []⟩

/-- What the code puts into a mandatory field that has no member. -/
def standIn : UInt8 → Option IE''')
for k, d in DEF.items(): o.append(f'  | {TYPE[k]} => some (.{k} {d})')
o.append('''  | _ => none

/-! ## The octets -/

theorem add16_four {m : Mode} {l : UInt16} (h : l.toNat < 65532) : (add16 m l 4 : R Err UInt16) = .ok (l + 4) ∧ (l + 4).toNat = l.toNat + 4 := by
  have h4 : (4 : UInt16).toNat = 4 := rfl
  constructor
  · cases m
    · simp only [add16]
      rw [if_pos (by omega)]
    · rfl
  · rw [UInt16.toNat_add]
    omega

theorem grouped_ok {α : Type} {dec : Bytes → R Err (List IE)} {mk : UInt8 → UInt16 → UInt8 → List IE → α} {m : Mode} {b : Bytes} {x : α} :
    groupUnm dec mk m b = .ok x ↔ ∃ l, 4 ≤ b.length ∧ 0 < (declLen b).toNat ∧ (declLen b).toNat < 65532 ∧ (declLen b).toNat + 4 ≤ b.length ∧
      dec ((b.take ((declLen b).toNat + 4)).drop 4) = .ok l ∧ x = mk (b.getD 0 0) (declLen b) (b.getD 3 0) l := by
  unfold groupUnm
  by_cases h4 : 4 ≤ b.length
  · rw [if_pos h4]
    have r0 : (rd b 0 : R Err UInt8) = .ok (b.getD 0 0) := rd_getD (by omega)
    have r1 : (rd16 b 1 : R Err UInt16) = .ok (declLen b) := by
      have h1 : 1 < b.length := by omega
      have h2 : 1 + 1 < b.length := by omega
      simp [rd16, rd_lt h1, rd_lt h2, declLen, h1, h2]
    have r3 : (rd b 3 : R Err UInt8) = .ok (b.getD 3 0) := rd_getD (by omega)
    rw [r0, R.ok_bind, r1, R.ok_bind, r3, R.ok_bind]
    unfold checkTliv
    by_cases h0 : declLen b = 0
    · rw [if_pos h0, R.ok_bind, if_neg (by decide)]
      refine iff_of_false (by intro h; cases h) ?_
      rintro ⟨l, -, h, -⟩
      rw [h0] at h
      exact absurd h (by decide)
    · rw [if_neg h0]
      have hp : 0 < (declLen b).toNat := by
        rw [Nat.pos_iff_ne_zero]
        exact fun h => h0 (UInt16.toNat_inj.mp h)
      by_cases hl : (declLen b).toNat < 65532
      · obtain ⟨a1, a2⟩ := add16_four (m := m) hl
        unfold slBody16
        rw [a1, R.ok_bind]
        by_cases hb : (declLen b).toNat + 4 ≤ b.length
        · rw [R.pure_eq, R.ok_bind, a2, if_pos (by simpa using hb), R.ok_bind]
          have hs : (sl b 4 ((declLen b).toNat + 4) : R Err Bytes) = .ok ((b.take ((declLen b).toNat + 4)).drop 4) := by
            unfold sl
            rw [if_pos ⟨by omega, hb⟩]
          rw [a2, hs, R.ok_bind]
          constructor
          · intro h
            obtain ⟨l, hd, h⟩ := ok_bind_inv h
            cases h
            exact ⟨l, h4, hp, hl, hb, hd, rfl⟩
          · rintro ⟨l, -, -, -, -, hd, rfl⟩
            rw [hd, R.ok_bind]
            rfl
        · rw [R.pure_eq, R.ok_bind, a2, if_neg (by simpa using hb)]
          refine iff_of_false (by intro h; cases h) ?_
          rintro ⟨l, -, -, -, h, -⟩
          exact hb h
      · refine iff_of_false ?_ (by rintro ⟨l, -, -, h, -⟩; exact hl h)
        intro h
        have h16 := UInt16.toNat_lt (declLen b)
        have hf : (4 : UInt16).toNat = 4 := rfl
        obtain ⟨c, h1, h⟩ := ok_bind_inv h
        obtain ⟨d, h2, -⟩ := ok_bind_inv h1
        split at h
        · obtain ⟨s, h3, -⟩ := ok_bind_inv h
          unfold slBody16 at h3
          obtain ⟨d, h5, h6⟩ := ok_bind_inv h3
          cases m
          · simp only [add16] at h5
            rw [if_neg (by omega)] at h5
            cases h5
          · simp only [add16] at h5
            cases h5
            unfold sl at h6
            rw [if_neg (by rw [UInt16.toNat_add]; omega)] at h6
            cases h6
        · cases h
  · rw [if_neg h4]
    refine iff_of_false ?_ (by rintro ⟨l, h, -⟩; exact h4 h)
    intro h
    obtain ⟨t, -, h⟩ := ok_bind_inv h
    cases h

theorem map_ok {α β : Type} {r : R Err α} {f : α → β} {y : β} : (r >>= fun x => (pure (f x) : R Err β)) = .ok y ↔ ∃ x, r = .ok x ∧ y = f x := by
  constructor
  · intro h
    obtain ⟨x, hx, h⟩ := ok_bind_inv h
    cases h
    exact ⟨x, hx, rfl⟩
  · rintro ⟨x, hx, rfl⟩
    rw [hx, R.ok_bind]
    rfl

/-- C94, first part: a grouped IE is accepted if its length fits and its members can be decoded, and the value is what the members prescribe.
No member is asked for, except one PC5 QoS flow in PC5 QoS Parameters. -/
theorem C94_accepted (k : Kind) (hk : k ∈ grouped) (m : Mode) (b : Bytes) (x : IE) :
    unmKind (decoder m) m b k = .ok x ↔ ∃ l, 4 ≤ b.length ∧ 0 < (declLen b).toNat ∧ (declLen b).toNat < 65532 ∧ (declLen b).toNat + 4 ≤ b.length ∧
      decoder m ((b.take ((declLen b).toNat + 4)).drop 4) = .ok l ∧ (k = .PC5QosParameters → thePC5QosFlow (exactly 0) l ≠ []) ∧
      x = built k (b.getD 0 0) (declLen b) (b.getD 3 0) l := by
  have plain : ∀ {α : Type} (mk : UInt8 → UInt16 → UInt8 → List IE → α) (f : α → IE), k ≠ .PC5QosParameters →
      (∀ t n i l, f (mk t n i l) = built k t n i l) → ((groupUnm (decoder m) mk m b >>= fun x => (pure (f x) : R Err IE)) = .ok x ↔
      ∃ l, 4 ≤ b.length ∧ 0 < (declLen b).toNat ∧ (declLen b).toNat < 65532 ∧ (declLen b).toNat + 4 ≤ b.length ∧
      decoder m ((b.take ((declLen b).toNat + 4)).drop 4) = .ok l ∧ (k = .PC5QosParameters → thePC5QosFlow (exactly 0) l ≠ []) ∧
      x = built k (b.getD 0 0) (declLen b) (b.getD 3 0) l) := by
    intro α mk f hne hf
    rw [map_ok]
    constructor
    · rintro ⟨y, hy, rfl⟩
      obtain ⟨l, h1, h2, h3, h4, h5, rfl⟩ := grouped_ok.mp hy
      exact ⟨l, h1, h2, h3, h4, h5, fun h => absurd h hne, hf ..⟩
    · rintro ⟨l, h1, h2, h3, h4, h5, -, rfl⟩
      exact ⟨_, grouped_ok.mpr ⟨l, h1, h2, h3, h4, h5, rfl⟩, (hf ..).symm⟩
  have none_over : ∀ {α : Type} (l : List α) (ty : UInt8), ∀ v, l.getLast?.map ([·]) = some v → ¬ 10 < v.length := by
    intro α l _ v h
    cases hl : l.getLast? with
    | none => rw [hl] at h; cases h
    | some a => rw [hl] at h; cases h; simp
  cases k <;> first | (exact absurd hk (by decide)) | skip''')
for g in G:
    v = V(g)
    if g == 'PC5QosParameters':
        o.append('''  case PC5QosParameters =>
    simp only [unmKind]
    constructor
    · intro h
      obtain ⟨y, hy, h⟩ := ok_bind_inv h
      obtain ⟨l, h1, h2, h3, h4, h5, rfl⟩ := grouped_ok.mp hy
      rw [C94_PC5QosParameters] at h
      split at h
      · cases h
      · next hn => cases h; exact ⟨l, h1, h2, h3, h4, h5, fun _ => hn, rfl⟩
    · rintro ⟨l, h1, h2, h3, h4, h5, h6, rfl⟩
      rw [grouped_ok.mpr ⟨l, h1, h2, h3, h4, h5, rfl⟩, R.ok_bind, C94_PC5QosParameters]
      exact (if_neg (h6 trivial)).trans rfl''')
    elif g in ('LoadControl', 'OverloadControlInfo'):
        o.append(f'''  case {v} =>
    have hc : ∀ (ty t : UInt8) (n : UInt16) (i : UInt8) (l : List IE), listCheck ty V2.{g}.list (V2.{g}.ofGroup t n i l) = .ok (V2.{g}.ofGroup t n i l) := by
      intro ty t n i l
      unfold listCheck
      split
      · next w hw =>
        rw [C94_{g}] at hw
        rw [if_neg (none_over _ ty w hw)]
      · rfl
    refine Iff.trans ?_ (plain V2.{g}.ofGroup .{v} (by decide) (fun t n i l => by rw [C94_{g}]; rfl))
    simp only [unmKind]
    constructor
    · intro h
      obtain ⟨y, hy, h⟩ := ok_bind_inv h
      obtain ⟨z, hz, h⟩ := ok_bind_inv h
      obtain ⟨l, -, -, -, -, -, rfl⟩ := grouped_ok.mp hy
      rw [hc] at hz
      cases hz
      cases h
      rw [hy, R.ok_bind]
      rfl
    · intro h
      obtain ⟨y, hy, h⟩ := ok_bind_inv h
      cases h
      obtain ⟨l, -, -, -, -, -, rfl⟩ := grouped_ok.mp hy
      rw [hy, R.ok_bind, hc, R.ok_bind]
      rfl''')
    else:
        o.append(f'''  case {v} => exact plain V2.{g}.ofGroup .{v} (by decide) (fun t n i l => by rw [C94_{g}]; rfl)''')
o.append('''
/-! ## Members and fields -/
''')
for k in kinds:
    o.append(f'''theorem in_{k} {{c : UInt8 → Bool}} {{l : List IE}} {{y : IE}} (hy : y ∈ l) (hk : y.kind = .{k}) (hc : c y.ins = true) : ∃ x, y = .{k} x ∧ x ∈ the{k} c l := by
  cases y <;> first | (cases hk; done) | skip
  rename_i x
  exact ⟨x, rfl, List.mem_filterMap.mpr ⟨_, hy, if_pos hc⟩⟩

theorem out_{k} {{c : UInt8 → Bool}} {{l : List IE}} {{x : V2.{TY.get(k, k)}}} (h : x ∈ the{k} c l) : .{k} x ∈ l ∧ c x.ins = true := by
  obtain ⟨y, hy, h⟩ := List.mem_filterMap.mp h
  split at h
  · split at h
    · next hc => cases h; exact ⟨hy, hc⟩
    · cases h
  · cases h
''')
for k in DEF:
    c = '(exactly 0)'
    o.append(f'''theorem absent_{k} {{c : UInt8 → Bool}} (h0 : c 0 = true) {{l : List IE}} (h : the{k} c l = []) (z : IE) (hz : z ∈ l) (ha : z.kind = kindOf {TYPE[k]} ∧ z.ins = 0) :
    False := by
  obtain ⟨x, -, hx⟩ := in_{k} (c := c) hz (ha.1.trans (by decide +kernel)) (by rw [ha.2]; exact h0)
  rw [h] at hx
  cases hx
''')
o.append('''theorem only_mem {α : Type} {L : List α} {x : α} (h : x ∈ ((L.getLast?.map ([·])).getD [])) : x ∈ L := by
  cases hl : L.getLast? with
  | none => rw [hl] at h; cases h
  | some a => rw [hl] at h; cases List.mem_singleton.mp h; exact List.mem_of_getLast? hl

theorem only_some {α : Type} {L : List α} {x : α} (h : x ∈ ((L.getLast?.map ([·])).getD [])) : L.getLast? = some x := by
  cases hl : L.getLast? with
  | none => rw [hl] at h; cases h
  | some a => rw [hl] at h; cases List.mem_singleton.mp h; rfl

theorem first_of {α : Type} {L : List α} {x : α} (hx : x ∈ L) (hu : ∀ z ∈ L, z = x) : L.head? = some x := by
  cases L with
  | nil => cases hx
  | cons a L => exact congrArg some (hu a List.mem_cons_self)

theorem last_of {α : Type} {L : List α} {x : α} (hx : x ∈ L) (hu : ∀ z ∈ L, z = x) : L.getLast? = some x := by
  cases h : L.getLast? with
  | none => rw [List.getLast?_eq_none_iff] at h; subst h; cases hx
  | some a => exact congrArg some (hu a (List.mem_of_getLast? h))

theorem mem_opt {α : Type} {F : α → IE} {o : Option α} {x : α} (h : o = some x) : F x ∈ o.toList.map F := by
  rw [h]
  exact List.mem_singleton.mpr rfl

theorem mem_def {α : Type} {F : α → IE} {o : Option α} {x d : α} (h : o = some x) : F x ∈ [F (o.getD d)] := by
  rw [h]
  exact List.mem_singleton.mpr rfl

theorem mem_dflt {α : Type} {F : α → IE} {o : Option α} {d : α} (h : o = none) : F d ∈ [F (o.getD d)] := by
  rw [h]
  exact List.mem_singleton.mpr rfl

theorem in_field {L : List (List IE)} (j : Nat) {p : List IE} {y : IE} (h : L[j]? = some p) (hy : y ∈ p) : y ∈ L.flatten :=
  List.mem_flatten.mpr ⟨p, List.mem_of_getElem? h, hy⟩

/-- Rows whose members are decoded and then dropped. -/
def lost : List (Kind × Row) := [''' + ', '.join(f'(.{V(g)}, {r})' for g, r in lost) + ''']

/-- Rows of which several are allowed, and at most one is kept. -/
def oneOnly : List (Kind × Row) := [''' + ', '.join(f'(.{V(g)}, {r})' for g, r in one) + ''']

/-- Rows whose field takes a member of the type whatever its instance. -/
def careless : List (Kind × Row) := [''' + ', '.join(f'(.{V(g)}, {r})' for g, r in careless) + ''']

/-- The member competes for the field of the row. -/
def Rival (k : Kind) (r : Row) (z : IE) : Prop := z.kind = kindOf r.type ∧ (z.ins = r.ins ∨ (k, r) ∈ careless)

/-! ## Every member is kept -/
''')
COND = {'(exactly 0)': 'exactly', '(exactly 1)': 'exactly', '(below 2)': 'below', '(below 4)': 'below', 'any': 'any'}
for g in G:
    v = V(g)
    rs = rowsof(g)
    o.append(f'''theorem kept_{g} (r : Row) (hr : r ∈ rows .{v}) (h1 : (Kind.{v}, r) ∉ lost) (h2 : (Kind.{v}, r) ∉ oneOnly) (t : UInt8) (n : UInt16) (i : UInt8) (l : List IE)
    (y : IE) (hy : y ∈ l) (ha : r.At y) (hs : r.several = true ∨ ∀ z ∈ l, Rival .{v} r z → z = y) : y ∈ contents (built .{v} t n i l) := by
  simp only [rows, List.mem_cons, List.not_mem_nil, or_false] at hr
  rcases hr with {' | '.join('rfl' for _ in rs)}''')
    for r, ty, i, mu, se, f in rs:
        if f is None or (g, r) in one:
            o.append(f'  · exact absurd (by decide) {"h1" if f is None else "h2"}')
            continue
        j, (_, h, k, c) = FIELDS[g][f]
        o.append(f'''  · have hk : kindOf {ty} = .{k} := by decide +kernel
    have hc : ({c.strip('()')}) y.ins = true := by rw [show y.ins = {i} from ha.2]; decide
    obtain ⟨x, rfl, hx⟩ := in_{k} hy (ha.1.trans hk) hc''')
        if h == 'all':
            o.append(f'    exact in_field {j} rfl (List.mem_map_of_mem hx)')
        else:
            L = f'the{k} {c} l'
            # all elements of the list are x
            o.append(f'''    have hu : ∀ z ∈ {L}, z = x := by
      intro z hz
      obtain ⟨z1, z2⟩ := out_{k} hz
      have := (hs.resolve_left (by decide)) _ z1 ⟨hk.symm, {'.inl (beq_iff_eq.mp z2)' if c != 'any' else '.inr (by decide)'}⟩
      injection this''')
            if h in ('first', 'key'): o.append(f'    have hf := first_of hx hu')
            else: o.append(f'    have hf := last_of hx hu')
            o.append(f"    exact in_field {j} rfl ({'mem_opt' if h in ('first', 'over') else 'mem_def'} (F := IE.{k}) hf)")
    o.append('')
o.append('''/-- C94, second part (partial: the rows of `lost`, `oneOnly` and `careless` are exceptions): a member that the table of the grouped IE has is in the
value, each of them where the table allows several, and otherwise if there is no other for the same place. -/
theorem C94_kept_partial (k : Kind) (r : Row) (hr : r ∈ rows k) (h1 : (k, r) ∉ lost) (h2 : (k, r) ∉ oneOnly) (t : UInt8) (n : UInt16) (i : UInt8)
    (l : List IE) (y : IE) (hy : y ∈ l) (ha : r.At y) (hs : r.several = true ∨ ∀ z ∈ l, Rival k r z → z = y) : y ∈ contents (built k t n i l) := by
  cases k <;> first | (cases hr; done) | skip''')
for g in G: o.append(f'  case {V(g)} => exact kept_{g} r hr h1 h2 t n i l y hy ha hs')
o.append('''
/-! ## Nothing else is there, but what stands in for missing members -/
''')
for g in G:
    v = V(g)
    fs = G[g]
    o.append(f'''theorem source_{g} (t : UInt8) (n : UInt16) (i : UInt8) (l : List IE) (y : IE) (hy : y ∈ contents (built .{v} t n i l)) :
    y ∈ l ∨ ∃ r ∈ rows .{v}, r.must = true ∧ (∀ z ∈ l, ¬ r.At z) ∧ standIn r.type = some y := by
  obtain ⟨p, hp, hy⟩ := List.mem_flatten.mp hy
  simp only [List.mem_cons, List.not_mem_nil, or_false] at hp
  rcases hp with {' | '.join('rfl' for _ in fs)}''')
    for f, h, k, c in fs:
        if h == 'none': o.append('  · cases hy')
        elif h in ('first', 'over'):
            o.append(f'''  · obtain ⟨x, hx, rfl⟩ := List.mem_map.mp hy
    exact .inl (out_{k} (List.mem_of_{'head' if h == 'first' else 'getLast'}? (Option.mem_toList.mp hx))).1''')
        elif h == 'all':
            o.append(f'''  · obtain ⟨x, hx, rfl⟩ := List.mem_map.mp hy
    exact .inl (out_{k} hx).1''')
        elif h == 'only':
            o.append(f'''  · obtain ⟨x, hx, rfl⟩ := List.mem_map.mp hy
    exact .inl (out_{k} (only_mem hx)).1''')
        else:
            r = [r for r in rowsof(g) if r[5] == f][0]
            w = 'head' if h == 'key' else 'getLast'
            o.append(f'''  · cases List.mem_singleton.mp hy
    change .{k} (((the{k} {c} l).{w}?.getD _)) ∈ l ∨ _
    cases hf : (the{k} {c} l).{w}? with
    | some x => exact .inl (out_{k} (List.mem_of_{w}? hf)).1
    | none => exact .inr ⟨{r[0]}, by decide, rfl, fun z hz ha => absent_{k} (by decide) ({'List.head?_eq_none_iff' if h == 'key' else 'List.getLast?_eq_none_iff'}.mp hf) z hz ha, congrArg (fun a => some (IE.{k} a)) (congrArg (fun o => Option.getD o _) hf).symm⟩''')
    o.append('')
o.append('''/-- C94, third part (partial: the property has no stand-ins): what is in the value was among the members, or it stands in for a mandatory member that
was not there. -/
theorem C94_source_partial (k : Kind) (hk : k ∈ grouped) (t : UInt8) (n : UInt16) (i : UInt8) (l : List IE) (y : IE) (hy : y ∈ contents (built k t n i l)) :
    y ∈ l ∨ ∃ r ∈ rows k, r.must = true ∧ (∀ z ∈ l, ¬ r.At z) ∧ standIn r.type = some y := by
  cases k <;> first | (exact absurd hk (by decide)) | skip''')
for g in G: o.append(f'  case {V(g)} => exact source_{g} t n i l y hy')
o.append('')
for g in G:
    v = V(g)
    o.append(f'''theorem standIn_{g} (r : Row) (hr : r ∈ rows .{v}) (hm : r.must = true) (t : UInt8) (n : UInt16) (i : UInt8) (l : List IE) (y : IE)
    (ha : ∀ z ∈ l, z.kind ≠ kindOf r.type) (hy : standIn r.type = some y) : y ∈ contents (built .{v} t n i l) := by
  simp only [rows, List.mem_cons, List.not_mem_nil, or_false] at hr
  rcases hr with {' | '.join('rfl' for _ in rowsof(g))}''')
    for r, ty, i, mu, se, f in rowsof(g):
        if not mu: o.append('  · cases hm'); continue
        j, (_, h, k, c) = FIELDS[g][f]
        if h not in ('key', 'last'): o.append('  · cases hy'); continue
        o.append(f'''  · cases hy
    have hn : the{k} {c} l = [] := List.filterMap_eq_nil_iff.mpr fun z hz => by
      have := ha z hz
      split
      · exact absurd rfl this
      · rfl
    exact in_field {j} rfl (mem_dflt (F := IE.{k}) ({'List.head?_eq_none_iff' if h == 'key' else 'List.getLast?_eq_none_iff'}.mpr hn))''')
    o.append('')
o.append('''/-- C94 is violated by every grouped IE with a mandatory member of one of nine types: without it, the value has a member that was never received. -/
theorem C94_violation_standIn (k : Kind) (r : Row) (hr : r ∈ rows k) (hm : r.must = true) (t : UInt8) (n : UInt16) (i : UInt8) (l : List IE) (y : IE)
    (ha : ∀ z ∈ l, z.kind ≠ kindOf r.type) (hy : standIn r.type = some y) : y ∈ contents (built k t n i l) := by
  cases k <;> first | (cases hr; done) | skip''')
for g in G: o.append(f'  case {V(g)} => exact standIn_{g} r hr hm t n i l y ha hy')
for g in sorted({g for g, r in lost}):
    fs = [x for x in G[g] if x[1] != 'none']
    o.append(f'''
theorem kinds_{g} (t : UInt8) (n : UInt16) (i : UInt8) (l : List IE) (y : IE) (hy : y ∈ contents (built .{V(g)} t n i l)) :
    y.kind ∈ ([{', '.join('.' + k for k in dict.fromkeys(x[2] for x in fs))}] : List Kind) := by
  obtain ⟨p, hp, hy⟩ := List.mem_flatten.mp hy
  simp only [List.mem_cons, List.not_mem_nil, or_false] at hp
  rcases hp with {' | '.join('rfl' for _ in G[g])}''')
    for f, h, k, c in G[g]:
        if h == 'none': o.append('  · cases hy')
        elif h in ('last', 'key'): o.append('  · cases List.mem_singleton.mp hy; simp only [IE.kind]; decide')
        else: o.append('  · obtain ⟨x, -, rfl⟩ := List.mem_map.mp hy; simp only [IE.kind]; decide')
o.append('''
/-- C94 is violated by the rows of `lost`: such a member is never in the value. -/
theorem C94_violation_lost (k : Kind) (r : Row) (hr : (k, r) ∈ lost) (t : UInt8) (n : UInt16) (i : UInt8) (l : List IE) (y : IE) (ha : r.At y) :
    y ∉ contents (built k t n i l) := by
  intro hy
  simp only [lost, List.mem_cons, List.not_mem_nil, or_false] at hr
  rcases hr with ''' + ' | '.join('h' for _ in lost))
for g, r in lost:
    o.append(f'''  · cases h
    have hm := kinds_{g} t n i l y hy
    rw [ha.1] at hm
    exact absurd hm (by decide +kernel)''')
o.append('')
for g, r in one:
    rr = [x for x in rowsof(g) if x[0] == r][0]
    j, (f, h, k, c) = FIELDS[g][rr[5]]
    src = f'((the{k} {c} l).' + ('head?' if h == 'first' else 'getLast?') + ')'
    o.append(f'''theorem one_{g} (t : UInt8) (n : UInt16) (i : UInt8) (l : List IE) (y : IE) (hy : y ∈ contents (built .{V(g)} t n i l)) (hk : y.kind = .{k}) :
    {src}.map IE.{k} = some y := by
  obtain ⟨p, hp, hy⟩ := List.mem_flatten.mp hy
  simp only [List.mem_cons, List.not_mem_nil, or_false] at hp
  rcases hp with {' | '.join('rfl' for _ in G[g])}''')
    for f2, h2, k2, c2 in G[g]:
        if f2 == f:
            o.append('  · obtain ⟨x, hx, rfl⟩ := List.mem_map.mp hy')
            o.append('    exact congrArg (Option.map _) ' + ('(Option.mem_toList.mp hx)' if h == 'first' else '(only_some hx)'))
        elif h2 == 'none': o.append('  · cases hy')
        elif h2 in ('last', 'key'): o.append('  · cases List.mem_singleton.mp hy; cases hk')
        else: o.append('  · obtain ⟨x, -, rfl⟩ := List.mem_map.mp hy; cases hk')
    o.append('')
o.append('''/-- C94 is violated by the rows of `oneOnly`: of several such members the value has at most one. -/
theorem C94_violation_one (k : Kind) (r : Row) (hr : (k, r) ∈ oneOnly) (t : UInt8) (n : UInt16) (i : UInt8) (l : List IE) (y z : IE) (ha : r.At y) (hb : r.At z)
    (hy : y ∈ contents (built k t n i l)) (hz : z ∈ contents (built k t n i l)) : y = z := by
  simp only [oneOnly, List.mem_cons, List.not_mem_nil, or_false] at hr
  rcases hr with ''' + ' | '.join('h' for _ in one))
for g, r in one:
    rr = [x for x in rowsof(g) if x[0] == r][0]
    k = FIELDS[g][rr[5]][1][2]
    o.append(f'''  · cases h
    have hk : kindOf {rr[1]} = .{k} := by decide +kernel
    exact Option.some.inj ((one_{g} t n i l y hy (ha.1.trans hk)).symm.trans (one_{g} t n i l z hz (hb.1.trans hk)))''')
o.append(TAIL)
open(os.path.join(HERE, '..', 'lean', 'Verif', 'Props', 'Grouped.lean'), 'w').write('\n'.join(o) + '\nend Gtp.Props.Grouped\n')
