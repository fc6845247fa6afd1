import Verif.Props.C01_Dictionary
import Verif.Props.C07_Map
import Verif.Props.C15_Pointers
import Verif.Props.C16_Dangling
import Verif.Props.C18_Hash
import Verif.Props.C19_VByte
import Verif.Props.C20_CompactVector
import Verif.Props.C22_HashTables
import Verif.Props.C21_Bits
import Verif.Props.C24_Tries
import Verif.Props.C28_Labels
import Verif.Props.C36_Exhaustion
import Verif.Props.C13_Lost
import Verif.Props.C30_Debug
import Verif.Props.C14_InteriorNul
import Verif.Props.C37_Moves
import Verif.Props.C38_Strings
import Verif.Props.C39_Memory
import Verif.Props.C40_BinaryKeys
import Verif.Props.C42_Stats
import Verif.Props.C42_Dsps
import Verif.Props.C43_Crash
import Verif.Props.C43_Stuck
import Verif.Props.C43_Overwrite
import Verif.Props.C44_Alloc
import Verif.Props.C45_Cost
import Verif.Props.C42_Lengths
import Verif.Props.C46_Alignment
import Verif.Props.C47_Between
import Verif.Props.C48_Limit
import Verif.Props.C49_Programs
import Verif.Props.C50_Tests
import Verif.Props.C51_Threads
import Verif.Props.C52_Allocator
import Verif.Props.C53_Lambda
import Verif.Props.C54_Capacity
