import Verif.V2.WrapHard
import Verif.V2.Crash

/-!
# The octets on which a release build panics or does not advance

Expanded by `scripts/gen_wrap.py`.
-/

namespace Gtp.V2

/-- The octets on which the decoder of a kind panics in a release build, if the declared length is 65532 or more. For the kinds
that do not add 4 to the length as `u16` they are those of a debug build. -/
def Kind.WrapCrash (b : Bytes) : Kind → Prop
  | .Imsi => 5 ≤ b.length ∧ b.length < declN b + 4
  | .Cause => False
  | .StnSr => 4 ≤ b.length
  | .Apn => 4 ≤ b.length ∧ (b.length < declN b + 4 ∨ ¬ Labels ((b.take (4 + declN b)).drop 4))
  | .IpAddress => False
  | .Mei => 4 ≤ b.length
  | .Msisdn => 4 ≤ b.length
  | .Pco => 4 ≤ b.length
  | .PdnAddressAllocation => 5 ≤ b.length ∧ (octAt b 4 = 1 ∧ b.length < 9 ∨ octAt b 4 = 2 ∧ b.length < 22 ∨ octAt b 4 = 3 ∧ b.length < 26)
  | .BearerTft => 4 ≤ b.length ∧ b.length < declN b + 4
  | .TrafficAggregateDescription => 4 ≤ b.length ∧ b.length < declN b + 4
  | .Uli => 4 ≤ b.length ∧ (b.length = 4 ∨ b.getD 4 0 &&& 4 = 4 ∧ 8 ≤ octAt b 4 ∧ b.length = 11 + 7 * (octAt b 4 % 2) + 7 * (octAt b 4 / 2 % 2))
  | .Fteid => 4 ≤ b.length ∧ b.length < Fteid.need (b.getD 4 0)
  | .S103pdf => 4 ≤ b.length ∧ (b.length = 4 ∨ octAt b 4 = 4 ∧ b.length < 14 ∨ octAt b 4 = 16 ∧ (b.length = 25 ∨ 25 < b.length ∧ b.length = 25 + octAt b 25))
  | .S1udf => 4 ≤ b.length ∧ (b.length < 6 ∨ octAt b 5 = 4 ∧ b.length < 14 ∨ octAt b 5 = 16 ∧ 22 ≤ b.length ∧ b.length < 26)
  | .BearerContext => 4 ≤ b.length
  | .PdnConnections => 4 ≤ b.length
  | .CompleteRequestMessage => 5 ≤ b.length ∧ octAt b 4 < 2 ∧ b.length < declN b + 4
  | .Fcontainer => 5 ≤ b.length ∧ octAt b 4 ≠ 0 ∧ b.length < declN b + 4
  | .Fcause => 5 ≤ b.length ∧ b.length < declN b + 4
  | .SrcRncPdcpCtxInfo => 4 ≤ b.length
  | .Fqcsid => False
  | .Fqdn => 4 ≤ b.length ∧ (b.length < declN b + 4 ∨ ¬ Labels ((b.take (4 + declN b)).drop 4))
  | .MbmsSa => b.length = 4
  | .MbmsIpMulticastDistribution => 8 ≤ b.length ∧ ¬ checksIp b 8 fun c => checksIp b c fun c => c ≠ b.length
  | .Ldn => 4 ≤ b.length ∧ b.length < declN b + 4
  | .Apco => 4 ≤ b.length ∧ b.length < declN b + 4
  | .RanNasCause => False
  | .NodeNumber => 5 ≤ b.length ∧ (octAt b 4 = 0 ∨ b.length < octAt b 4 + 5)
  | .NodeIdentifier => False
  | .PresenceReportingAreaAction => 4 ≤ b.length ∧ (b.length < 14 ∨ PresenceReportingAreaAction.extPos b = b.length)
  | .OverloadControlInfo => 4 ≤ b.length
  | .LoadControlInfo => 4 ≤ b.length
  | .ApnRelativeCapacity => 4 ≤ b.length ∧ (b.length < declN b + 4 ∨ ¬ Labels ((b.take (4 + declN b)).drop 5))
  | .IntegerNumber => 4 ≤ b.length ∧ b.length < declN b + 4
  | .RemoteUeContext => 4 ≤ b.length
  | .RemoteUeIpInformation => 5 ≤ b.length ∧ (octAt b 4 = 1 ∧ b.length < 9 ∨ octAt b 4 = 2 ∧ b.length < 13)
  | .ScefPdnConnections => 4 ≤ b.length
  | .Epco => 4 ≤ b.length
  | .MaxPacketLossRate => False
  | .ExtendedTraceInformation => 11 ≤ b.length ∧ ¬ checksLv b 10 fun c => checksLv b c fun c => c < b.length → checksLv b (c + 1) fun c => c < b.length
  | .MonitoringEventExtensionInfo => 4 ≤ b.length ∧ (b.length < 10 ∨ b.length = 9 + octAt b 9)
  | .V2xInformation => 4 ≤ b.length
  | .PC5QosParameters => 4 ≤ b.length
  | .PC5QosFlow => 4 ≤ b.length ∧ (b.length < 14 ∨ b.getD 4 0 &&& 1 = 1 ∧ b.length < 15)
  | .SgiPtpTunnelAddress => False
  | .PgwChangeInfo => 4 ≤ b.length
  | .PgwFqdn => 4 ≤ b.length ∧ (b.length < declN b + 4 ∨ ¬ Labels ((b.take (4 + declN b)).drop 4))
  | .GroupId => 4 ≤ b.length ∧ b.length < declN b + 4
  | .AlternativeImsi => 5 ≤ b.length ∧ b.length < declN b + 4
  | .SpecialIEWithTypeExt => 5 ≤ b.length ∧ b.length < declN b + 4
  | .PrivateExtension => 7 ≤ b.length
  | .Unknown => 4 ≤ b.length
  | k => k.Crash b

/-- The octets on which the decoder of a kind panics in a release build, for a grouped kind without the octets of the members. -/
def Kind.CrashR (b : Bytes) (k : Kind) : Prop := declN b < 65532 ∧ k.Crash b ∨ 65532 ≤ declN b ∧ k.WrapCrash b

/-- The octets which in a release build are decoded as an IE of the kind whose size is 0 octets. -/
def Kind.Spin (b : Bytes) : Kind → Prop
  | .Apn => declN b = 65532 ∧ 65536 ≤ b.length ∧ Labels ((b.take 65536).drop 4)
  | .Fteid => declN b = 65532 ∧ 64 ≤ octAt b 4 ∧ Fteid.need (b.getD 4 0) ≤ b.length
  | .CompleteRequestMessage => declN b = 65532 ∧ 5 ≤ b.length ∧ (2 ≤ octAt b 4 ∨ 65536 ≤ b.length)
  | .Fcontainer => declN b = 65532 ∧ 5 ≤ b.length ∧ (octAt b 4 = 0 ∨ 65536 ≤ b.length)
  | .Fqcsid => declN b = 65532 ∧ 5 ≤ b.length ∧ (octAt b 4 / 16 = 0 ∧ 9 + 2 * (octAt b 4 % 16) ≤ b.length ∨ octAt b 4 / 16 = 1 ∧ 21 + 2 * (octAt b 4 % 16) ≤ b.length ∨ octAt b 4 / 16 = 2 ∧ 9 + 2 * (octAt b 4 % 16) ≤ b.length)
  | .Fqdn => declN b = 65532 ∧ 65536 ≤ b.length ∧ Labels ((b.take 65536).drop 4)
  | .Ldn => declN b = 65532 ∧ 65536 ≤ b.length
  | .RemoteUeIpInformation => declN b = 65532 ∧ 5 ≤ b.length ∧ (octAt b 4 = 0 ∨ octAt b 4 = 1 ∧ 9 ≤ b.length ∨ octAt b 4 = 2 ∧ 13 ≤ b.length)
  | .ExtendedTraceInformation => declN b = 65532 ∧ 11 ≤ b.length ∧ ExtendedTraceInformation.Whole b
  | _ => False

end Gtp.V2
