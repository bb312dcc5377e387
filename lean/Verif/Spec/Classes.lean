import Verif.Model.Py

/-! Classes of system calls of Linux, from the manual pages of section 2 and the classes `%file` and `%network` of strace(1). Old names of the
same calls (`oldstat`, `newlstat`, `chown16`, ...), names of other systems (`__getcwd`, `fstatat`) and the 64 bit time variants are listed beside them. -/

namespace PT.Spec

/-- Calls with an argument that is a path name, given or (`getcwd`) returned. -/
def pathCalls : List String := [
  "__getcwd", "access", "acct", "chdir", "chmod", "chown", "chown16", "chown32", "chroot", "creat", "execve", "execveat", "faccessat", "faccessat2",
  "fanotify_mark", "fchmodat", "fchownat", "fspick", "fstatat", "fstatat64", "futimesat", "getcwd", "getxattr", "inotify_add_watch", "lchown", "lchown16",
  "lchown32", "lgetxattr", "link", "linkat", "listxattr", "llistxattr", "lremovexattr", "lsetxattr", "lstat", "lstat64", "mkdir", "mkdirat",
  "mknod", "mknodat", "mount", "mount_setattr", "move_mount", "name_to_handle_at", "newfstatat", "newlstat", "newstat", "oldlstat", "oldstat",
  "oldumount", "open", "open_tree", "openat", "openat2", "pivot_root", "quotactl", "readlink", "readlinkat", "removexattr", "rename",
  "renameat", "renameat2", "rmdir", "setxattr", "spu_create", "stat", "stat64", "statfs", "statfs64", "statx", "swapoff", "swapon", "symlink",
  "symlinkat", "truncate", "truncate64", "umount", "umount2", "unlink", "unlinkat", "uselib", "utime", "utimensat", "utimensat_time64",
  "utimes"]

/-- Calls of the socket interface. -/
def networkCalls : List String := ["accept", "accept4", "bind", "connect", "getpeername", "getsockname", "getsockopt", "listen", "recv",
  "recvfrom", "recvmmsg", "recvmmsg_time64", "recvmsg", "send", "sendmmsg", "sendmsg", "sendto", "setsockopt", "shutdown", "socket",
  "socketcall", "socketpair"]

/-- Calls with a path name that the names of their arguments do not show: the argument is called `name`, `dev_name`, `new_root`, `special`,
`specialfile` or `library`, or the call has no prototype. -/
def pathMissed : List String := ["acct", "chown32", "faccessat2", "fspick", "lchown32", "mount", "mount_setattr", "move_mount", "name_to_handle_at", "oldlstat",
  "oldstat", "oldumount", "open_tree", "openat2", "pivot_root", "quotactl", "spu_create", "swapoff", "swapon", "umount", "umount2", "uselib",
  "utimensat_time64"]

/-- Calls of the socket interface that are not in the lists of the project. -/
def networkMissed : List String := ["accept4", "recv", "recvmmsg", "recvmmsg_time64", "send", "sendmmsg", "socketcall"]

end PT.Spec
