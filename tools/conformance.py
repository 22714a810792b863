#!/usr/bin/env python3
"""Compare the model with the expectations of /repo/src/tests.rs.

Takes input and expected output of every test from the Rust source, runs
lean/Verif/Test/Conformance.lean on the same metadata and data, and compares.
Run after `lake build`:  python3 tools/conformance.py [/repo]
"""
import re, sys, subprocess, hashlib, os

REPO = sys.argv[1] if len(sys.argv) > 1 else '/repo'
HERE = os.path.dirname(os.path.abspath(__file__))
src = open(REPO + '/src/tests.rs').read()

# functions of the test module
fns = {}
for m in re.finditer(r'^fn (\w+)\([^)]*\)[^{]*\{\n(.*?)^\}', src, re.M | re.S):
    fns[m[1]] = m[2]
genesis = {n: re.search(r'hex::decode\("([0-9a-f]+)"', b)[1] for n, b in fns.items() if n.startswith('genesis_hash_')}
specs = {n: (re.search(r'base58prefix: (\d+)', b)[1], re.search(r'decimals: (\d+)', b)[1], re.search(r'unit: "(\w+)"', b)[1])
         for n, b in fns.items() if n.startswith('specs_')}
tests = re.findall(r'#\[test\]\nfn (\w+)\(', src)

B58 = '123456789ABCDEFGHJKLMNPQRSTUVWXYZabcdefghijkmnopqrstuvwxyz'
def base58(prefix, h):
    """SS58 address format."""
    p = bytes([prefix]) if prefix < 64 else bytes([((prefix & 0xfc) >> 2) | 0x40, (prefix >> 8) | ((prefix & 3) << 6)])
    body = p + h
    body += hashlib.blake2b(b'SS58PRE' + body).digest()[:2]
    n, out = int.from_bytes(body, 'big'), ''
    while n: n, r = divmod(n, 58); out = B58[r] + out
    return '1' * (len(body) - len(body.lstrip(b'\0'))) + out

def rust(e):
    """Expected value in tests.rs, written as the harness writes it."""
    e = re.sub(r'//[^\n]*', '', e)
    e = re.sub(r'String::from\(("[^"]*")\)', r'\1', e)
    e = re.sub(r'("[^"]*")\s*\.to_string\(\)', r'\1', e)
    e = e.replace('String::new()', '""').replace('Vec::new()', 'vec![]')
    e = re.sub(r'hex::decode\(("[0-9a-f]*")\)\.unwrap\(\)\.try_into\(\)\.unwrap\(\)', r'\1', e)
    e = re.sub(r'H256::from_str\(("[0-9a-f]*")\)\.unwrap\(\)', r'\1', e)
    e = re.sub(r'Path::from_segments\((vec!\[[^\]]*\])\)\s*\.unwrap\(\)\s*\.into_portable\(&mut Registry::new\(\)\)', r'\1', e)
    out, i = '', 0
    for m in re.finditer(r'"[^"]*"', e):
        out += re.sub(r'\s', '', e[i:m.start()]) + m[0]; i = m.end()
    out += re.sub(r'\s', '', e[i:])
    return re.sub(r',([\]\)\}])', r'\1', out)

def ordered(e):
    """Fields of ExtendedData in the order of the declaration."""
    def end(i):  # the end of the value that begins at i
        d = 0
        while d or e[i] not in ',}':
            d += (e[i] in '[({') - (e[i] in '])}'); i += 1
        return i
    while (k := e.find('ExtendedData{info:')) >= 0:
        a = k + len('ExtendedData{'); m = end(a); z = end(m + 1)
        e = e[:a] + e[m + 1:z] + ',' + e[a:m] + e[z:]
    return e

def expr(b, name):
    m = re.search(r'let ' + name + r'\s*=(.*?);\n', b, re.S)
    return ordered(rust(m[1]))

jobs, expect = [], {}
for t in tests:
    b = fns[t]
    f = REPO + '/' + re.search(r'for_tests/\w+', b)[0]
    data = re.findall(r'hex::decode\(\s*"([0-9a-f]+)"', re.sub(r'//[^\n]*', '', b))[0]
    want = []
    if 'decode_as_unchecked_extrinsic' in b:
        jobs.append([t, f, 'extrinsic', data])
        if 'expected_address' in b:
            want = [expr(b, 'expected_' + n) for n in ('address', 'signature', 'extra', 'call_fields')]
        else:
            want = [None, expr(b, 'expected_signature'), None, None]
    elif 'decode_as_storage_entry' in b:
        k, v = re.findall(r'hex::decode\(\s*"([0-9a-f]+)"', b)[:2]
        part = k[-8:]
        h = hashlib.blake2b(bytes.fromhex(part), digest_size=16).hexdigest()
        jobs.append([t, f, 'storage', k, v, 'Assets', 'Metadata', part, h])
        want = [expr(b, 'expected_key_data'), expr(b, 'expected_value_data'), re.search(r'storage\.docs, "([^"]*)"', b)[1]]
    elif 'decode_all_as_type' in b:
        jobs.append([t, f, 'type', data, 'System', 'Digest'])
        e = expr(b, 'reply_known')
        if e.startswith('ParserError'):
            m = re.search(r'CyclicMetadata\{id:(\d+)\}', e)
            e = 'error Verif.Out.err (Verif.PErr.registry (Verif.RegErr.internal (Verif.RegInternal.cyclicMetadata %s)))' % m[1]
        want = ['type 11', e]
    else:
        g = re.search(r'genesis_hash_\w+', b)
        s = specs[(re.search(r'specs_\w+', b) or ['specs_westend'])[0]]
        docs = 'docs' if 'show_with_docs' in b else 'plain'
        kind = 'unmarked' if 'parse_transaction_unmarked' in b else 'marked'
        jobs.append([t, f, kind, data, genesis[g[0]] if g else '-', *s, docs])
        if 'call_known' in b:
            want = re.search(r'let call_known = "\n(.*?)\n";', b, re.S)[1].split('\n') + ['== extensions']
            m = re.search(r'let extensions_known = "\n(.*?)\n";', b, re.S)
            want += m[1].split('\n') if m else ['...']
        else:
            e = re.search(r'let \w*error_known\s*=(.*?);\n', b, re.S)[1]
            e = rust(e)
            call = 'call_error_known' in b
            known = [
                (r'SignableError::WrongSpecVersion\{as_decoded:"(\d+)",in_metadata:"(\d+)"\}', r'Verif.SErr.wrongSpecVersion "\1" "\2"'),
                (r'SignableError::SomeDataNotUsedCall\{from:(\d+),to:(\d+)\}', r'Verif.SErr.someDataNotUsedCall \1 \2'),
                (r'SignableError::SomeDataNotUsedExtensions\{from:(\d+)\}', r'Verif.SErr.someDataNotUsedExtensions \1'),
                (r'SignableError::Parsing\(ParserError::NoCompact\{position:(\d+)\}\)', r'Verif.SErr.parsing (Verif.PErr.noCompact \1)'),
                (r'SignableError::Parsing\(ParserError::UnexpectedEnumVariant\{position:(\d+)\}\)', r'Verif.SErr.parsing (Verif.PErr.unexpectedEnumVariant \1)'),
                (r'SignableError::Parsing\(ParserError::Buffer\(BufferError::DataTooShort\{position:(\d+),minimal_length:(\d+)\}\)\)', r'Verif.SErr.parsing (Verif.PErr.buffer (Verif.BufErr.dataTooShort \1 \2))'),
            ]
            for p, r in known:
                if re.fullmatch(p, e): e = re.sub(p, r, e); break
            else: raise Exception('unknown error ' + e)
            want = ['call error ' + e, '== extensions', '...'] if call else ['error Verif.Out.err (%s)' % e]
    expect[t] = want

# the example in the documentation of the crate
doc = re.search(r'# Examples\n(.*?)\n```\n', re.sub(r'^//! ?', '', open(REPO + '/src/lib.rs').read(), flags=re.M), re.S)[1]
t = 'example in lib.rs'
jobs.append([t, REPO + '/' + re.search(r'for_tests/\w+', doc)[0], 'parsed', re.search(r'signable_data = hex::decode\("([0-9a-f]+)"', doc)[1],
             re.search(r'genesis_hash = H256::from_str\("([0-9a-f]+)"', doc)[1]])
expect[t] = re.findall(r'assert_eq!\(call_data\.0\.\w+_name, ("\w+")\)', doc) + [expr(doc, 'expected_field_data'), expr(doc, 'expected_extensions_data')]
tests.append(t)

# parsed transactions are written again from the values shown (Spec/Wallet) and give the same bytes
for j in list(jobs):
    if j[2] in ('marked', 'unmarked') and not any(w and 'error' in w for w in expect[j[0]]):
        jobs.append([j[0] + ' rewritten', j[1], 'wallet', j[2], j[3], j[4]])
        expect[j[0] + ' rewritten'] = ['same bytes']
        tests.append(j[0] + ' rewritten')

# extrinsics and storage entries are written again (Spec/Node)
for j in list(jobs):
    if j[2] in ('extrinsic', 'storage') and not any(w and 'error' in w for w in expect[j[0]]):
        jobs.append([j[0] + ' rewritten', j[1], {'extrinsic': 'node', 'storage': 'nodekey'}[j[2]]] + j[3:])
        # in this test of the crate three bytes behind the call are ignored (DESIGN.md, finding 1)
        expect[j[0] + ' rewritten'] = ['same bytes, then 3 more' if j[0] == 'unchecked_extrinsic_2' else 'same bytes']
        tests.append(j[0] + ' rewritten')

# decoded calls and values are encoded again (Spec/Encoder) and give the same bytes
for j in list(jobs):
    if j[2] in ('marked', 'unmarked') and not any(w and 'error' in w for w in expect[j[0]]):
        jobs.append([j[0] + ' reencoded', j[1], 'reencode', j[2], j[3]])
    elif j[2] == 'type' and not any('error' in w for w in expect[j[0]]):
        jobs.append([j[0] + ' reencoded', j[1], 'reencode', j[4] + '.' + j[5], j[3]])
    else: continue
    expect[j[0] + ' reencoded'] = ['same bytes']
    tests.append(j[0] + ' reencoded')

# the metadata of C82, C83, C91, C92
for name, path in (('Real/Westend', 'westend9111'), ('Real/Polkadot', 'polkadot1003003_v15')):
    jobs.append([name, REPO + '/for_tests/' + path, 'same'])
    expect[name] = ['System.Account: true', 'types: true', 'pallets: true', 'extrinsic: true', 'extensions: true']
    tests.append(name)

p = subprocess.run(['lake', 'env', 'lean', '--run', 'Verif/Test/Conformance.lean'], cwd=HERE + '/../lean',
                   input='\n'.join('\t'.join(j) for j in jobs) + '\n', capture_output=True, text=True)
if p.returncode: print(p.stdout[-2000:], p.stderr[-2000:]); sys.exit(1)
got = {}
for part in p.stdout.split('### ')[1:]:
    n, _, body = part.partition('\n')
    body = re.sub(r'<base58:(\d+):([0-9a-f]+)>', lambda m: base58(int(m[1]), bytes.fromhex(m[2])), body)
    got[n] = body.rstrip('\n').split('\n')
bad = 0
for t in tests:
    w, g = expect[t], got.get(t, [])
    if w and w[-1] == '...': w, g = w[:-1], g[:len(w) - 1]
    same = len(w) == len(g) and all(x is None or x == y for x, y in zip(w, g))
    print(('agrees  ' if same else 'DIFFERS ') + t)
    if not same:
        bad += 1
        for x, y in zip(w + [''] * 99, g):
            if x is not None and x != y: k=next(i for i in range(9999) if x[i:i+1]!=y[i:i+1]); print('  expected', x[max(k-60,0):k+150]); print('  model   ', y[max(k-60,0):k+150]); break
        else: print('  lengths', len(w), len(g))
print('%d tests, %d differ' % (len(tests), bad))
sys.exit(bad)
