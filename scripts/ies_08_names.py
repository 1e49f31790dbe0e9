module('Names', 'Information elements holding a dotted name', ('Verif.V2.Names',))

for (nm, f, ln) in [('Apn', 'apn.rs', '16'), ('Fqdn', 'fqdn.rs', '16'), ('PgwFqdn', 'pgwfqdn.rs', 'U')]:
    ie(nm, f, 0, [('name', 'Str')], 'encName x.name', check=True, len=ln, length='x.name.length + 1',
       dec='let donor ← sl b 4 (4 + length.toNat)\nlet name ← decName donor', ret='name', wf=[('hn', 'NameOk x.name')],
       rt='''
have he := encName_length hn
have hd := decName_encName (ε := Err) hn
enc_simp [marshal]
generalize encName name = s at he hd
var_simp [unmarshal, ht, hi, hd]''',
       lenok='''
have he := encName_length hn
simp only [marshal, tliv_eq, len, %s, hl, he, List.length_cons]''' % ('ieLen16_ok hbd' if ln == '16' else 'ieLenU'),
       safecond='fun b => Labels ((b.take (4 + (declLen b).toNat)).drop 4)',
       safe='''
intro m b hb hc
unfold declLen at *
safe_simp [unmarshal, len, Safe_checkTliv hb%s]
have key := fun P hP => decName_safe (ε := Err) (P := P) hc hP
repeat' first | with_reducible apply And.intro | intro _
all_goals first | omega | (apply key; intro _; omega)''' % (', ieLen16_ok hb' if ln == '16' else ''))

ie('ApnRelativeCapacity', 'apnrelativecapacity.rs', 0, [('relative_cap', 'UInt8'), ('name', 'Str')], '[x.relative_cap] ++ encName x.name', check=True,
   len='U', length='x.name.length + 2',
   dec='''let c ← rd b 4
let donor ← sl b 5 (4 + length.toNat)
let name ← decName donor''', ret='relative_cap := if c ≤ 100 then c else 0, name', wf=[('hr', 'x.relative_cap ≤ 100'), ('hn', 'NameOk x.name')],
   rt='''
have he := encName_length hn
have hd := decName_encName (ε := Err) hn
enc_simp [marshal]
generalize encName name = s at he hd
var_simp [unmarshal, ht, hi, hd, hr]''',
   lenok='''
have he := encName_length hn
simp only [marshal, tliv_eq, len, ieLenU, hl, he, List.length_cons, List.length_append, List.length_nil]
try (congr 1; omega)''',
   safecond='fun b => Labels ((b.take (4 + (declLen b).toNat)).drop 5)',
   safe='''
intro m b hb hc
unfold declLen at *
safe_simp [unmarshal, len, Safe_checkTliv hb]
have key := fun P hP => decName_safe (ε := Err) (P := P) hc hP
repeat' first | with_reducible apply And.intro | intro _
all_goals first | omega | (apply key; intro _; omega)''')
