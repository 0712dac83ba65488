import sys; sys.path.insert(0,'/verif/tools')
from tab import *
R='/repo/src/'
a=numbers(R+'sha2_256.h','kTable[64]'); b=numbers(R+'sha2_512.h','kTable[80]')
for f in ['sha2_224']: assert numbers(R+f+'.h','kTable[64]')==a
for f in ['sha2_384','sha2_512_224','sha2_512_256']: assert numbers(R+f+'.h','kTable[80]')==b
assert len(a)==64 and len(b)==80
o="import Verif.Core.Basic\n\n/-! Tables extracted by script from the text of sha2_256.h and sha2_512.h (the other SHA-2\nheaders contain the same numbers; the script compared them). -/\n\nnamespace Verif.Model.SHA2\n\n"
o+=vec('kTable32','W32',a,'`kTable` (sha2_256.h:262-280)')+"\n"+vec('kTable64','W64',b,'`kTable` (sha2_512.h:325-347)',4)+"\nend Verif.Model.SHA2\n"
open('/verif/lean/Verif/Model/SHA2Tables.lean','w').write(o)
