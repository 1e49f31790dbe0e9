RD = {'UInt8': 'rd', 'UInt16': 'rd16', 'UInt32': 'rd32', 'UInt64': 'rd64'}
BE = {'UInt8': '[x.%s]', 'UInt16': 'be16 x.%s', 'UInt32': 'be32 x.%s', 'UInt64': 'be64 x.%s'}
SZ = {'UInt8': 1, 'UInt16': 2, 'UInt32': 4, 'UInt64': 8}


def num(name, file, ty, fields, **kw):
    """big-endian numbers one after the other; a field is (name, type[, mask bits])"""
    off, enc, dec, ret, wf = 4, [], [], [], []
    for f in fields:
        n, t = f[0], f[1]
        enc.append(BE[t] % n)
        dec.append('let %s ← %s b %d' % (n, RD[t], off))
        if f.__len__() > 2:
            ret.append('%s := %s &&& 0x%02x' % (n, n, f[2]))
            wf.append('x.%s < %d' % (n, f[2] + 1))
        else:
            ret.append(n)
        off += SZ[t]
    ie(name, file, ty, [(f[0], f[1]) for f in fields], ' ++ '.join(enc), '\n'.join(dec), ', '.join(ret),
       size=off - 4, wf=wf, **kw)


LOOSE = dict(len='U', sname='LooseSafe (fun _ => True)')

module('Numeric1', 'Information elements consisting of numbers, part 1')
num('Recovery', 'recovery.rs', 3, [('recovery', 'UInt8')])
num('Ebi', 'ebi.rs', 73, [('value', 'UInt8', 15)])
num('EmlppPriority', 'emlppprio.rs', 134, [('priority', 'UInt8', 7)])
num('MbmsTimeToDataTransfer', 'mbmstimetodatatransfer.rs', 153, [('mbms_time_to_data', 'UInt8')], mask=False)
num('BitRate', 'bitrate.rs', 211, [('bitrate', 'UInt32')])
num('ChannelNeeded', 'channelneeded.rs', 133, [('chnl_needed', 'UInt8')])
num('ChargingId', 'chargingid.rs', 94, [('charging_id', 'UInt32')])
num('CsgId', 'csgid.rs', 147, [('csgid', 'UInt32')])
num('DelayValue', 'delayvalue.rs', 92, [('value', 'UInt8')])
num('HopCounter', 'hopcounter.rs', 113, [('hop_counter', 'UInt8')], **LOOSE)
num('MbmsFlowId', 'mbmsflowid.rs', 141, [('mbms_flowid', 'UInt16')])
num('MbmsSessionId', 'mbmssessionid.rs', 140, [('mbms_sessionid', 'UInt8')])
num('PortNumber', 'portnumber.rs', 126, [('port', 'UInt16')])
num('Pti', 'pti.rs', 100, [('pti', 'UInt8')])
num('PtmsiSignature', 'ptmsisignature.rs', 112, [('ptmsi_sig', 'UInt32')])
num('RfspIndex', 'rfspindex.rs', 144, [('spid', 'UInt16')])
num('SelectionMode', 'selectionmode.rs', 128, [('mode', 'UInt8', 3)])
num('Sqn', 'sqn.rs', 0, [('sqn', 'UInt32')])

module('Numeric2', 'Information elements consisting of numbers, part 2')
num('Tmsi', 'tmsi.rs', 0, [('tmsi', 'UInt32')], **LOOSE)
num('TwanIdTimeStamp', 'twanidtimestamp.rs', 0, [('timestamp', 'UInt32')])
num('UliTimestamp', 'ulitimestamp.rs', 0, [('timestamp', 'UInt32')])
num('MappedUeUsageType', 'mueut.rs', 0, [('usage_type', 'UInt16')])
num('Ptmsi', 'ptmsi.rs', 0, [('ptmsi', 'UInt32')], mask=False)
num('AdditionalRrmPolicyIndex', 'arpi.rs', 0, [('arpi', 'UInt32')])
num('ChargingCharacteristics', 'chargingchar.rs', 0, [('charging_char', 'UInt16')])
num('CSGInformationReportingAction', 'csginforeporting.rs', 0, [('action', 'UInt8', 7)])
num('PacketFlowId', 'packetflowid.rs', 0, [('ebi', 'UInt8', 15), ('flow_id', 'UInt32')])
num('Counter', 'counter.rs', 0, [('timestamp', 'UInt32'), ('counter', 'UInt8')])
num('ServingPlmnRateControl', 'servingplmnratecontrol.rs', 0, [('rate_ctrl_ul', 'UInt16'), ('rate_ctrl_dl', 'UInt16')])
num('AbsoluteTimeMbmsDataTransfer', 'abstimembmsdatatransfer.rs', 0, [('seconds', 'UInt64')])
num('Ambr', 'ambr.rs', 0, [('ambr_ul', 'UInt32'), ('ambr_dl', 'UInt32')])
num('ChangeReportingAction', 'changereportingaction.rs', 0, [('action', 'UInt8')])
num('Ip4Cp', 'ip4cp.rs', 0, [('subnet_prefix', 'UInt8'), ('ip', 'UInt32')])
ie('MbmsDistributionAck', 'mbmsdistributionack.rs', 143, [('distr_id', 'UInt8')], '[x.distr_id &&& 0x03]',
   'let v ← rd b 4', 'distr_id := v &&& 0x03', size=1, wf=['x.distr_id < 4'])
ie('Metric', 'metric.rs', 182, [('metric', 'UInt8')], '[x.metric]',
   'let v ← rd b 4', 'metric := if v > 100 then 0 else v', size=1, wf=['x.metric ≤ 100'],
   rtpre='have hn : ¬ metric > 100 := UInt8.not_lt.mpr hv3', rtsimp='hn')
ie('MilliSecondTimeStamp', 'millisecondtimestamp.rs', 0, [('timestamp', 'UInt64')], 'be48 x.timestamp',
   'let timestamp ← rd48 b 4', 'timestamp', size=6, wf=['x.timestamp.toNat < 2 ^ 48'], rtpre='simp only [Nat.reducePow] at hv3', rtsimp='of48_be hv3')
