"""Add a citation of /repo (or the remark that there is nothing to cite) to the comments of definitions in
Model/ and Core/ that carry none. Run after the generators of generated modules; running it twice changes nothing.
Without --apply it only lists the definitions without citation that it has no text for."""
import glob, os, re, sys
os.chdir(os.path.join(os.path.dirname(os.path.abspath(__file__)), '..', 'lean', 'Verif'))
def scan(files):
    out=[]
    for f in files:
        L=open(f).read().split('\n')
        for i,l in enumerate(L):
            m=re.match(r'(@\[.*\] )?(private )?(noncomputable )?(def|structure|inductive|abbrev|class)\s+(\S+)',l)
            if not m: continue
            j=i-1
            while j>=0 and (L[j].startswith('@[') or L[j].startswith('attribute') or L[j].startswith('set_option')): j-=1
            doc=None
            if j>=0 and L[j].rstrip().endswith('-/'):
                k=j
                while k>=0 and '/--' not in L[k] and '/-!' not in L[k]: k-=1
                if '/--' in L[k]: doc=(k,j)
            text='\n'.join(L[doc[0]:doc[1]+1]) if doc else ''
            if not re.search(r':\d+',text): out.append((f,i,m.group(5),doc,text,L[i:i+4]))
    return out
C={}
def c(f,n,*t): C[('Model/%s.lean'%f,n)]=list(t)
NOT="not in /repo: "
for n,l in [("SHA3_224",614),("SHA3_256",615),("SHA3_384",616),("SHA3_512",617),("SHAKE_128",629),("SHAKE_256",630)]:
    c("SHA3",n,f"`{n}` (sha3.h:{l})"); c("Alloc",n+"A",f"`{n}` (sha3.h:{l}) where allocations can fail")
c("Alloc","callA","(cshake.h:236-254)")
c("Alloc","Mem.storeA","(cshake.h:189-234, 236-254)")
c("Alloc","Mem.execA","Not in /repo: the user's program.")
c("AllocRead","Reading","Not in /repo: the ways out of a C++ function.")
c("AllocRead","Reading.noexcept","(`noexcept`: sha3.h:223, cshake.h:100)")
c("AllocRead","runA","; the calls are those of cshake.h:71-129, their order is the user's")
c("AllocRead","tupleStepA","(tuple_hash.h:70-119)")
c("AllocRead","tupleRunA","; the calls are those of tuple_hash.h:70-119, their order is the user's")
c("BLAKE","Cfg","blake1_224.h:451-631, blake1_256.h:453-633, blake1_384.h:518-716, blake1_512.h:520-718.")
c("BLAKE","cfg256","blake1_256.h:192-286, 453-633.")
c("BLAKE","cfg224","blake1_224.h:192-286, 451-631.")
c("BLAKE","Obj32","the members of the 32-bit classes (blake1_256.h:248-251)")
c("BLAKE","Obj64","the members of the 64-bit classes (blake1_512.h:311-314)")
c("BLAKE","api32","blake1_224.h:192-258, blake1_256.h:192-258.")
c("BLAKE","api64","blake1_384.h:255-321, blake1_512.h:255-321.")
c("BLAKE","Blake1_256","(blake1_256.h:192-258)")
c("BLAKE","Blake1_512","(blake1_512.h:255-321)")
c("BLAKE2","Cfg","blake2.h:255-352, blake2s.h:192-286.")
c("BLAKE2","State","`m_sizeCounter` and `m_h` (blake2.h:312-314, blake2s.h:249-251)")
c("BLAKE2","cfg2",":255-352, 500-643")
c("BLAKE2","cfg2s",":192-286, 434-561")
c("BLAKE2","Obj2","the members of `Blake2` (blake2.h:311-314)")
c("BLAKE2","Obj2s","the members of `Blake2s` (blake2s.h:248-251)")
c("BLAKE2","Blake2","(blake2.h:255-320)")
c("BLAKE2","Blake2s","(blake2s.h:192-257)")
c("BLAKE2Calls","Call","blake2.h:523.")
c("BLAKECalls","Call","blake1_256.h:484.")
c("CLI","ascii","; for the string literals of main.cpp:108-136 and 139-159")
c("CLI","IStream","main.cpp:173-186, 192-207.")
c("CLI","openStream","(main.cpp:173-177, 192-196)")
c("CLI","Hasher","(main.cpp:171-188)")
c("CLI","ofAPI","(the cases of main.cpp:213-669)")
c("CLI","isSpace",", for `std::stoi` (main.cpp:286)")
c("CLI","isDigit","a decimal digit, for `std::stoi` (main.cpp:286)")
c("CLI","digitsValue",", for `std::stoi` (main.cpp:286)")
c("CLI","Outcome","(main.cpp:85-104)")
c("CShake","callK","(cshake.h:236-254)")
c("CShake","step","; not in /repo: the user chooses the calls (cshake.h:71-129)")
c("CShake","run","; not in /repo: the user chooses the calls (cshake.h:71-129)")
c("CShake","tupleStep","; not in /repo: the user chooses the calls (tuple_hash.h:70-119)")
c("CShake","tupleRun","a history of calls; not in /repo: the user chooses the calls (tuple_hash.h:70-119)")
H="CShakeHeap"
c(H,"HeapFault","Not in /repo: the ways to fail of C++.")
c(H,"lift","a fault of the code is a fault; not in /repo")
c(H,"Mem","cshake.h:125-128.")
c(H,"Mem.empty","; not in /repo: the start of a program")
c(H,"Mem.load","(cshake.h:236-275)")
c(H,"Mem.store","(cshake.h:209-253)")
c(H,"Mem.alloc","(cshake.h:155, 159, 193, 195)")
c(H,"Mem.free","(`m_shake`, `m_keccak`: cshake.h:127-128)")
c(H,"Mem.swap","(cshake.h:201-205, 227-231)")
c(H,"Mem.setFlag","(cshake.h:125)")
c(H,"Mem.flag","(`if (!m_customized)`, cshake.h:236-275)")
c(H,"Mem.vacant","; not in /repo: the user's program")
c(H,"Mem.place","(cshake.h:146-186)")
c(H,"padding","(cshake.h:345-346)")
c(H,"Mem.exec","Not in /repo: the user's program.")
for n,l in [("FNV32_1",320),("FNV32_1a",321),("FNV64_0",322),("FNV64_1",323),("FNV64_1a",324)]:
    c("FNV",n,f"`{n}` (fnv.h:{l})")
c("HAS160","konst","(has_160.h:482, 510, 538, 566)")
c("HAS160","rotB","(has_160.h:483, 511, 539, 567)")
c("HAS160Calls","Round","has_160.h:479, 507, 535, 563.")
c("HAS160Calls","Call","has_160.h:485-589.")
c("HASV","HAS_V_320_disabled","(has_v_320.cpp:302-548)")
c("HASVCalls","Stmt","has_v_320.cpp:250-300.")
K="KeccakStore"
c(K,"KStmt","Not in /repo: the user's program; the members are those of sha3.h:199-273.")
c(K,"Slot","Not in /repo: a description of the user's program.")
c(K,"Slot.after","Not in /repo: a description of the user's program.")
c(K,"Slot.moved","a slot after a move from it; not in /repo: a description of the user's program")
c(K,"afterStmt","Not in /repo: a description of the user's program.")
c(K,"slotsAfter","Not in /repo: a description of the user's program.")
c(K,"legalMovesFrom","Not in /repo: a description of the user's program.")
c(K,"LegalMoves","`legalMovesFrom` at the start, when there are no objects; not in /repo")
c(K,"slots","Not in /repo: a description of the user's program.")
c(K,"leave","(the class declares no copy or move: sha3.h:199-273)")
c(K,"exec","Not in /repo: the user's program; copies and moves are the implicit ones of sha3.h:199-273.")
c(K,"MovesIndependent","A property; not in /repo.")
L="Lookups"
for n in ("Look","bind","elem","value","places","loop"): c(L,n,"Not in /repo: the language in which the code below is written." if n=="Look" else "; not in /repo")
C[('Model/Lookups.lean',"table")]=["(md2.h:250)","(tiger.h:260)","(whirlpool.h:314)"]
c("MD2","pi","(md2.h:250)")
c("MD2","MD2","(md2.h:188-269)")
c("MD2Table","piSubst","`piSubst` (md2.h:250-268)")
c("MD4","exec","md4.h:457-521.")
c("MD4Calls","Call","md4.h:457-521.")
c("MD5Calls","Call","md5.h:480-551.")
M="Machine"
for n in ("szAdd","szSub","szMul"): c(M,n,"; not in /repo: C++ arithmetic")
c(M,"mdApiM","(the classes listed there, e.g. sha2_256.h:201-281)")
c(M,"blockApiM","(the classes listed there, e.g. sha3.h:199-273)")
c(M,"Fitting","Not in /repo: a description of the user's program.")
c(M,"API.SameMachine","A property; not in /repo.")
for f,s in (("Machine","M"),("Release","R")):
    c(f,"Keccak"+s,"(sha3.h:199-273)")
    c(f,"MD2"+s,"(md2.h:188-269)")
    c(f,"api32"+s,"blake1_224.h:192-258, blake1_256.h:192-258.")
    c(f,"api64"+s,"blake1_384.h:255-321, blake1_512.h:255-321.")
    c(f,"api"+s,"(blake2.h:255-320, blake2s.h:192-257)")
    c(f,"SipHashCD"+s,"(siphash.h:193-255)")
    c(f,"callK"+s,"(cshake.h:236-254)")
    c(f,"run"+s,"; not in /repo: the user chooses the calls (cshake.h:71-129)")
    c(f,"tupleRun"+s,"; not in /repo: the user chooses the calls (tuple_hash.h:70-119)")
c(M,"CRC_32M","(crc_32.h:92-692)")
c("Release","mdApiR","(the classes listed there, e.g. sha2_256.h:201-281)")
c("Release","blockApiR","(the classes listed there, e.g. sha3.h:199-273)")
c("Release","API.SameBuild","A property; not in /repo.")
O="Ops"
c(O,"mdApiO","(the classes of `mdApi`, e.g. sha1.h:192-252)")
c(O,"mdUnlogged","; not in /repo")
c(O,"Obj.unlogged","; not in /repo")
C[('Model/Ops.lean',"CfgO")]=["(sha2_256.h:475-561, sha2_512.h:546-632)","(`Loader`, blake1_256.h:263-286, blake1_512.h:326-353)","(`Loader`, blake2.h:325-352, blake2s.h:263-286)"]
c(O,"cfgO32",":286-309, 475-561")
c(O,"cfgO64",":353-380, 546-632")
C[('Model/Ops.lean',"execO")]=["(ripemd_128.h:473-611 and the other RIPEMD headers)","(has_v_320.cpp:250-300)"]
c(O,"ggO","`gg` (sm3.h:491, 523)")
c(O,"apiO","(blake1_256.h:192-258, blake1_512.h:255-321)")
c(O,"cfgO224",":263-286"); c(O,"cfgO256",":263-286"); c(O,"cfgO512",":326-353"); c(O,"cfgO2",":325-352"); c(O,"cfgO2s",":263-286")
c(O,"SipHashCDO","(siphash.h:193-255)")
P="OpsCShake"
for n in ("KObjO.unlogged","CShakeO.unlogged","logOf","CShakeO.log","TupleHashO.unlogged"): c(P,n,"; not in /repo")
c(P,"callKO","(cshake.h:236-254)")
c(P,"runO","; not in /repo: the user chooses the calls (cshake.h:71-129)")
c(P,"tupleRunO","; not in /repo: the user chooses the calls (tuple_hash.h:70-119)")
c("OpsTables","CRC_32O","(crc_32.h:92-692)")
c("OpsTables","MD2O","(md2.h:188-269)")
c("RIPEMD","exec","ripemd_128.h:473-611, ripemd_160.h:479-651, ripemd_256.h:478-630, ripemd_320.h:485-673.")
c("RIPEMDCalls","Call4","ripemd_128.h:473, ripemd_256.h:478.")
c("RIPEMDCalls","Call5","ripemd_160.h:479, ripemd_320.h:485.")
c("RIPEMDCalls","Stmt","ripemd_128.h:473-611.")
c("SHA1","konst","(sha1.h:466, 493, 508, 531, 550, 581)")
c("SHA1Calls","Call","sha1.h:465-603.")
c("SHA2","Cfg","sha2_256.h:201-309, 475-561, sha2_512.h:264-380, 546-632.")
c("SHA2","Regs","sha2_256.h:501-508, sha2_512.h:572-579.")
c("SHA2","cfg32","sha2_256.h:201-309, 475-561.")
c("SHA2","cfg64","sha2_512.h:264-380, 546-632.")
c("SHA2","Obj32","sha2_256.h:257-260, sha2_512.h:320-323.")
c("SHA2","Obj64","see `Obj32` (sha2_512.h:320-323)")
c("SHA2","eq64","`operator==` (sha2_512.h:301-309)")
c("SHA2","api32","sha2_224.h:201-281, sha2_256.h:201-281.")
c("SHA2","api64","sha2_384.h:264-348, sha2_512.h:264-348, sha2_512_224.h:264-348, sha2_512_256.h:264-348.")
c("SHA2","SHA2_256","(sha2_256.h:201-281)")
c("SHA2","SHA2_512","(sha2_512.h:264-348)")
c("SHA3","RateOK","sha3.h:614-630, cshake.h:345-346.")
c("SHA3","KState","(sha3.h:270-272)")
c("SM3","gg","`gg` (sm3.h:491, 523)")
c("SM3Calls","Round","sm3.h:483, 515.")
c("SM3Calls","Call","sm3.h:483-577.")
c("SM3Calls","calls","sm3.h:498-577.")
c("SipHash","SipHashCD","siphash.h:193-255.")
for f,s in (("Spans","At"),("StdSpans","Std")):
    c(f,"step"+s,"; not in /repo: the user chooses the calls (cshake.h:71-129)")
    c(f,"run"+s,"; not in /repo: the user chooses the calls (cshake.h:71-129)")
    c(f,"tupleStep"+s,"; not in /repo: the user chooses the calls (tuple_hash.h:70-119)")
    c(f,"tupleRun"+s,"; not in /repo: the user chooses the calls (tuple_hash.h:70-119)")
c("Threads","commands","; not in /repo: the user's program")
c("Threads","thread","; not in /repo: the user's program")
c("Threads","tupleCommands","; not in /repo: the user's program")
c("Threads","tupleThread","; not in /repo: the user's program")
c("Tiger","t0","tiger.h:260.")
for i in (1,2,3): c("Tiger",f"t{i}",f"`tTable[{i}][i]` (tiger.h:260)")
for n,l in [("Tiger1_160",687),("Tiger1_192",688),("Tiger2_128",690),("Tiger2_160",691),("Tiger2_192",692)]: c("Tiger",n,f"`{n}` (tiger.h:{l})")
for i,(a,b) in enumerate([(262,295),(296,329),(330,363),(364,397)]): c("TigerTables",f"tTable{i}",f"(tiger.h:{a}-{b})")
for i in range(8):
    c("WhirlpoolTables",f"cTable{i}",f"(whirlpool.h:{316+34*i}-{349+34*i})")
    c("Whirlpool",f"c{i}",f"whirlpool.h:314-588." if i==0 else f"`cTable[{i}][i]` (whirlpool.h:{316+34*i}-{349+34*i})")
for i in range(16): c("CRC32Table",f"lut{i}",f"(crc_32.h:{147+34*i}-{180+34*i})")
T="TupleStore"
c(T,"TStmt","Not in /repo: the user's program; the members are those of tuple_hash.h:70-119.")
for n in ("TContent","afterStmt","tcontents","legalTuplesFrom"): c(T,n,"Not in /repo: a description of the user's program.")
c(T,"TContent.after","a slot after a call; not in /repo: a description of the user's program")
c(T,"tcontentsFrom","what is in each slot after a program, given what was there before; not in /repo: a description of the user's program")
c(T,"LegalTuples","`legalTuplesFrom` at the start, when there are no objects; not in /repo")
c(T,"execT","Not in /repo: the user's program.")
V="Vectors"
c(V,"Growth","Not in /repo: the standard library.")
c(V,"Heap","(`m_final`: sha3.h:270)")
c(V,"runH","a history of calls; not in /repo: the user chooses the calls (sha3.h:199-273)")
W="Work"
c(W,"mdReal","; not in /repo")
c(W,"apiW","(blake2.h:255-320, blake2s.h:192-257)")
c(W,"MD2W","(md2.h:188-269)"); c(W,"SipHashCDW","(siphash.h:193-255)"); c(W,"CRC_32W","(crc_32.h:92-692)")

# Core: what models code is cited, the rest is vocabulary
def k(f,n,*t): C[('Core/%s.lean'%f,n)]=list(t)
k("Basic","Byte","(sha2_256.h:206)")
k("Basic","W32","(sha2_256.h:260)")
k("Basic","W64","(sha2_512.h:323)")
k("Basic","Fault","Not in /repo: the ways to fail of C++.")
k("Basic","Block","sha2_256.h:481-483.")
k("Buffer","contents","sha2_256.h:355, 429.")
k("Buffer","spanFirst","gsl/span:619-623.")
k("Buffer","spanSub","gsl/span:631-635, 755-768.")
k("Buffer","blockAt","sha2_256.h:483.")
k("Loops","forRange","For example sha2_256.h:496-499.")
k("Loops","toNat","Not in /repo: the meaning of sha2_512.h:233-234.")
k("Loops","cntAdd128","sha2_512.h:407, 550.")
k("Memory","Mem","Not in /repo: the machine.")
k("Memory","Mem.read","; not in /repo: the machine")
k("Memory","expects","(gsl/assert:127)")
k("Memory","toDiff","(gsl/span:131, sha2_256.h:424, 446)")
k("Memory","iterRange","(sha2_256.h:109, 142)")
k("Memory","mem","(sha2_256.h:355, 429)")
k("Memory","blockFrom","(sha2_256.h:483, 296-305)")
k("Memory","mdImplAt","(sha2_256.h:475-483)")
k("Memory","runAt","; not in /repo: the user chooses the calls (sha2_256.h:219-233)")
k("Stream","Obj","sha2_256.h:257-260.")
k("Stream","MDState","sha2_256.h:258-260.")
k("Stream","writeLoop","sha2_256.h:347-353.")
k("Stream","Counter","sha2_256.h:258, 336, 345-353, 479, sha2_512.h:321, 407, 416-426, 550.")
k("Stream","cntAdd64","sha2_256.h:336, 479.")
k("Stream","blockApi","For example sha3.h:199-273.")
k("StdSpan","StdSpan","(sha2_256.h:211)")
for n in ("first","subspan","get","begin","«end»"): k("StdSpan",n,"; the standard library's (sha2_256.h:211)")
k("StdSpan","ptrAdd","(sha2_256.h:424, 446)")
k("StdSpan","ptrRange","sha2_256.h:109, 142.")
k("StdSpan","mdImplStd","(sha2_256.h:475-483)")
k("StdSpan","runStd","; not in /repo: the user chooses the calls (sha2_256.h:219-233)")
k("Overloads","bytesAt","(sha2_256.h:229)")
k("World","Source","main.cpp:173-186, 192-207.")
k("World","World.source","main.cpp:192-207.")
k("Alloc","AllocAPI","sha3.h:218, 334.")
k("Threads","iterLoopAct","(gsl/span:194-243)")
k("Threads","iterRangeAct","(sha2_256.h:109, 142)")
k("Threads","forBlocksAct","(sha2_256.h:481-483)")
k("Threads","mdImplAct","(sha2_256.h:475-483)")
k("Ops","Ops","Not in /repo: code together with the log of what it does.")
k("Ops","Op.shape","Not in /repo: what can be seen of a call without looking at its bytes.")
apply='--apply' in sys.argv
from collections import defaultdict
edits=defaultdict(list); seen=defaultdict(int); used=set()
for f,i,n,doc,text,body in scan(sorted(glob.glob('Model/*.lean')+glob.glob('Core/*.lean'))):
    if 'ot in /repo' in text: continue
    k=(f,n)
    if k not in C and f.startswith('Core/'): C[k]=['Not in /repo.' if text.rstrip()[:-2].rstrip().endswith('.') else '; not in /repo']
    if k not in C: print('MISSING',f,i+1,n,text[:80]); continue
    used.add(k); t=C[k]; x=t[min(seen[k],len(t)-1)]; seen[k]+=1
    edits[f].append((i,doc,x))
if apply:
    for f,es in edits.items():
        L=open(f).read().split('\n')
        for i,doc,x in sorted(es,reverse=True):
            if doc is None:
                j=i
                while L[j-1].startswith('@['): j-=1
                L.insert(j,'/-- '+x+' -/')
            else:
                e=doc[1]; l=L[e]; assert l.rstrip().endswith('-/'),l
                b=l.rstrip()[:-2].rstrip()
                if x.startswith('('):
                    b=(b[:-1]+' '+x+'.') if b.endswith('.') else b+' '+x
                elif x[0] in ';,:':
                    dot=b.endswith('.')
                    if dot and x[0]!=':':
                        b=b[:-1]+x+'.'
                    else: b=b+x
                else:
                    b=(b if b.endswith('.') else b+'.')+' '+x
                new=b+' -/'
                if len(new)>125:
                    # break at a space before col 120
                    p=new.rfind(' ',0,118)
                    L[e:e+1]=[new[:p],new[p+1:]]
                else: L[e]=new
        open(f,'w').write('\n'.join(L))
