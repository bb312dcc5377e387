/-
Generated by tools/gen_tables.py from the dictionaries of `/repo/ptrace/syscall/`, A dictionary is a list of pairs;
numbered ones are sorted by number.
-/

namespace PT.Tables

/-- `SYSCALL_NAMES` of `linux/x86_64.py`. -/
def x86_64 : List (Nat × String) := [
  (0, "read"), (1, "write"), (2, "open"), (3, "close"), (4, "stat"), (5, "fstat"), (6, "lstat"), (7, "poll"), (8, "lseek"),
  (9, "mmap"), (10, "mprotect"), (11, "munmap"), (12, "brk"), (13, "rt_sigaction"), (14, "rt_sigprocmask"), (15, "rt_sigreturn"),
  (16, "ioctl"), (17, "pread64"), (18, "pwrite64"), (19, "readv"), (20, "writev"), (21, "access"), (22, "pipe"), (23, "select"),
  (24, "sched_yield"), (25, "mremap"), (26, "msync"), (27, "mincore"), (28, "madvise"), (29, "shmget"), (30, "shmat"),
  (31, "shmctl"), (32, "dup"), (33, "dup2"), (34, "pause"), (35, "nanosleep"), (36, "getitimer"), (37, "alarm"), (38, "setitimer"),
  (39, "getpid"), (40, "sendfile"), (41, "socket"), (42, "connect"), (43, "accept"), (44, "sendto"), (45, "recvfrom"),
  (46, "sendmsg"), (47, "recvmsg"), (48, "shutdown"), (49, "bind"), (50, "listen"), (51, "getsockname"), (52, "getpeername"),
  (53, "socketpair"), (54, "setsockopt"), (55, "getsockopt"), (56, "clone"), (57, "fork"), (58, "vfork"), (59, "execve"),
  (60, "exit"), (61, "wait4"), (62, "kill"), (63, "uname"), (64, "semget"), (65, "semop"), (66, "semctl"), (67, "shmdt"),
  (68, "msgget"), (69, "msgsnd"), (70, "msgrcv"), (71, "msgctl"), (72, "fcntl"), (73, "flock"), (74, "fsync"), (75, "fdatasync"),
  (76, "truncate"), (77, "ftruncate"), (78, "getdents"), (79, "getcwd"), (80, "chdir"), (81, "fchdir"), (82, "rename"),
  (83, "mkdir"), (84, "rmdir"), (85, "creat"), (86, "link"), (87, "unlink"), (88, "symlink"), (89, "readlink"), (90, "chmod"),
  (91, "fchmod"), (92, "chown"), (93, "fchown"), (94, "lchown"), (95, "umask"), (96, "gettimeofday"), (97, "getrlimit"),
  (98, "getrusage"), (99, "sysinfo"), (100, "times"), (101, "ptrace"), (102, "getuid"), (103, "syslog"), (104, "getgid"),
  (105, "setuid"), (106, "setgid"), (107, "geteuid"), (108, "getegid"), (109, "setpgid"), (110, "getppid"), (111, "getpgrp"),
  (112, "setsid"), (113, "setreuid"), (114, "setregid"), (115, "getgroups"), (116, "setgroups"), (117, "setresuid"),
  (118, "getresuid"), (119, "setresgid"), (120, "getresgid"), (121, "getpgid"), (122, "setfsuid"), (123, "setfsgid"),
  (124, "getsid"), (125, "capget"), (126, "capset"), (127, "rt_sigpending"), (128, "rt_sigtimedwait"), (129, "rt_sigqueueinfo"),
  (130, "rt_sigsuspend"), (131, "sigaltstack"), (132, "utime"), (133, "mknod"), (134, "uselib"), (135, "personality"),
  (136, "ustat"), (137, "statfs"), (138, "fstatfs"), (139, "sysfs"), (140, "getpriority"), (141, "setpriority"),
  (142, "sched_setparam"), (143, "sched_getparam"), (144, "sched_setscheduler"), (145, "sched_getscheduler"),
  (146, "sched_get_priority_max"), (147, "sched_get_priority_min"), (148, "sched_rr_get_interval"), (149, "mlock"),
  (150, "munlock"), (151, "mlockall"), (152, "munlockall"), (153, "vhangup"), (154, "modify_ldt"), (155, "pivot_root"),
  (156, "_sysctl"), (157, "prctl"), (158, "arch_prctl"), (159, "adjtimex"), (160, "setrlimit"), (161, "chroot"), (162, "sync"),
  (163, "acct"), (164, "settimeofday"), (165, "mount"), (166, "umount2"), (167, "swapon"), (168, "swapoff"), (169, "reboot"),
  (170, "sethostname"), (171, "setdomainname"), (172, "iopl"), (173, "ioperm"), (174, "create_module"), (175, "init_module"),
  (176, "delete_module"), (177, "get_kernel_syms"), (178, "query_module"), (179, "quotactl"), (180, "nfsservctl"),
  (181, "getpmsg"), (182, "putpmsg"), (183, "afs_syscall"), (184, "tuxcall"), (185, "security"), (186, "gettid"),
  (187, "readahead"), (188, "setxattr"), (189, "lsetxattr"), (190, "fsetxattr"), (191, "getxattr"), (192, "lgetxattr"),
  (193, "fgetxattr"), (194, "listxattr"), (195, "llistxattr"), (196, "flistxattr"), (197, "removexattr"), (198, "lremovexattr"),
  (199, "fremovexattr"), (200, "tkill"), (201, "time"), (202, "futex"), (203, "sched_setaffinity"), (204, "sched_getaffinity"),
  (205, "set_thread_area"), (206, "io_setup"), (207, "io_destroy"), (208, "io_getevents"), (209, "io_submit"), (210, "io_cancel"),
  (211, "get_thread_area"), (212, "lookup_dcookie"), (213, "epoll_create"), (214, "epoll_ctl_old"), (215, "epoll_wait_old"),
  (216, "remap_file_pages"), (217, "getdents64"), (218, "set_tid_address"), (219, "restart_syscall"), (220, "semtimedop"),
  (221, "fadvise64"), (222, "timer_create"), (223, "timer_settime"), (224, "timer_gettime"), (225, "timer_getoverrun"),
  (226, "timer_delete"), (227, "clock_settime"), (228, "clock_gettime"), (229, "clock_getres"), (230, "clock_nanosleep"),
  (231, "exit_group"), (232, "epoll_wait"), (233, "epoll_ctl"), (234, "tgkill"), (235, "utimes"), (236, "vserver"), (237, "mbind"),
  (238, "set_mempolicy"), (239, "get_mempolicy"), (240, "mq_open"), (241, "mq_unlink"), (242, "mq_timedsend"),
  (243, "mq_timedreceive"), (244, "mq_notify"), (245, "mq_getsetattr"), (246, "kexec_load"), (247, "waitid"), (248, "add_key"),
  (249, "request_key"), (250, "keyctl"), (251, "ioprio_set"), (252, "ioprio_get"), (253, "inotify_init"),
  (254, "inotify_add_watch"), (255, "inotify_rm_watch"), (256, "migrate_pages"), (257, "openat"), (258, "mkdirat"),
  (259, "mknodat"), (260, "fchownat"), (261, "futimesat"), (262, "newfstatat"), (263, "unlinkat"), (264, "renameat"),
  (265, "linkat"), (266, "symlinkat"), (267, "readlinkat"), (268, "fchmodat"), (269, "faccessat"), (270, "pselect6"),
  (271, "ppoll"), (272, "unshare"), (273, "set_robust_list"), (274, "get_robust_list"), (275, "splice"), (276, "tee"),
  (277, "sync_file_range"), (278, "vmsplice"), (279, "move_pages"), (280, "utimensat"), (281, "epoll_pwait"), (282, "signalfd"),
  (283, "timerfd"), (284, "eventfd"), (285, "fallocate"), (286, "timerfd_settime"), (287, "timerfd_gettime"), (288, "accept4"),
  (289, "signalfd4"), (290, "eventfd2"), (291, "epoll_create1"), (292, "dup3"), (293, "pipe2"), (294, "inotify_init1"),
  (295, "preadv"), (296, "pwritev"), (297, "rt_tgsigqueueinfo"), (298, "perf_event_open"), (299, "recvmmsg"),
  (300, "fanotify_init"), (301, "fanotify_mark"), (302, "prlimit64"), (303, "name_to_handle_at"), (304, "open_by_handle_at"),
  (305, "clock_adjtime"), (306, "syncfs"), (307, "sendmmsg"), (308, "setns"), (309, "getcpu"), (310, "process_vm_readv"),
  (311, "process_vm_writev"), (312, "kcmp"), (313, "finit_module"), (314, "sched_setattr"), (315, "sched_getattr"),
  (316, "renameat2"), (317, "seccomp"), (318, "getrandom"), (319, "memfd_create"), (320, "kexec_file_load"), (321, "bpf"),
  (322, "execveat"), (323, "userfaultfd"), (324, "membarrier"), (325, "mlock2"), (326, "copy_file_range"), (327, "preadv2"),
  (328, "pwritev2"), (329, "pkey_mprotect"), (330, "pkey_alloc"), (331, "pkey_free"), (332, "statx"), (333, "io_pgetevents"),
  (334, "rseq"), (424, "pidfd_send_signal"), (425, "io_uring_setup"), (426, "io_uring_enter"), (427, "io_uring_register"),
  (428, "open_tree"), (429, "move_mount"), (430, "fsopen"), (431, "fsconfig"), (432, "fsmount"), (433, "fspick"),
  (434, "pidfd_open"), (435, "clone3"), (436, "close_range"), (437, "openat2"), (438, "pidfd_getfd"), (439, "faccessat2"),
  (440, "process_madvise"), (512, "rt_sigaction"), (513, "rt_sigreturn"), (514, "ioctl"), (515, "readv"), (516, "writev"),
  (517, "recvfrom"), (518, "sendmsg"), (519, "recvmsg"), (520, "execve"), (521, "ptrace"), (522, "rt_sigpending"),
  (523, "rt_sigtimedwait"), (524, "rt_sigqueueinfo"), (525, "sigaltstack"), (526, "timer_create"), (527, "mq_notify"),
  (528, "kexec_load"), (529, "waitid"), (530, "set_robust_list"), (531, "get_robust_list"), (532, "vmsplice"), (533, "move_pages"),
  (534, "preadv"), (535, "pwritev"), (536, "rt_tgsigqueueinfo"), (537, "recvmmsg"), (538, "sendmmsg"), (539, "process_vm_readv"),
  (540, "process_vm_writev"), (541, "setsockopt"), (542, "getsockopt"), (543, "io_setup"), (544, "io_submit"), (545, "execveat"),
  (546, "preadv2"), (547, "pwritev2")]

/-- `SOCKET_SYSCALL_NAMES` of `linux/x86_64.py`. -/
def x86_64Socket : List String := ["socket", "socketpair", "connect", "sendto", "recvfrom", "sendmsg", "recvmsg", "bind", "listen", "accept", "getsockname", "getpeername", "getsockopt", "setsockopt", "shutdown"]

/-- `SYSCALL_NAMES` of `linux/i386.py`. -/
def i386 : List (Nat × String) := [
  (0, "restart_syscall"), (1, "exit"), (2, "fork"), (3, "read"), (4, "write"), (5, "open"), (6, "close"), (7, "waitpid"),
  (8, "creat"), (9, "link"), (10, "unlink"), (11, "execve"), (12, "chdir"), (13, "time"), (14, "mknod"), (15, "chmod"),
  (16, "lchown16"), (18, "stat"), (19, "lseek"), (20, "getpid"), (21, "mount"), (22, "oldumount"), (23, "setuid16"),
  (24, "getuid16"), (25, "stime"), (26, "ptrace"), (27, "alarm"), (28, "fstat"), (29, "pause"), (30, "utime"), (33, "access"),
  (34, "nice"), (36, "sync"), (37, "kill"), (38, "rename"), (39, "mkdir"), (40, "rmdir"), (41, "dup"), (42, "pipe"), (43, "times"),
  (45, "brk"), (46, "setgid16"), (47, "getgid16"), (48, "signal"), (49, "geteuid16"), (50, "getegid16"), (51, "acct"),
  (52, "umount"), (54, "ioctl"), (55, "fcntl"), (57, "setpgid"), (59, "oldolduname"), (60, "umask"), (61, "chroot"), (62, "ustat"),
  (63, "dup2"), (64, "getppid"), (65, "getpgrp"), (66, "setsid"), (67, "sigaction"), (68, "sgetmask"), (69, "ssetmask"),
  (70, "setreuid16"), (71, "setregid16"), (72, "sigsuspend"), (73, "sigpending"), (74, "sethostname"), (75, "setrlimit"),
  (76, "old_getrlimit"), (77, "getrusage"), (78, "gettimeofday"), (79, "settimeofday"), (80, "getgroups16"), (81, "setgroups16"),
  (82, "old_select"), (83, "symlink"), (84, "lstat"), (85, "readlink"), (86, "uselib"), (87, "swapon"), (88, "reboot"),
  (89, "old_readdir"), (90, "old_mmap"), (91, "munmap"), (92, "truncate"), (93, "ftruncate"), (94, "fchmod"), (95, "fchown16"),
  (96, "getpriority"), (97, "setpriority"), (99, "statfs"), (100, "fstatfs"), (101, "ioperm"), (102, "socketcall"),
  (103, "syslog"), (104, "setitimer"), (105, "getitimer"), (106, "newstat"), (107, "newlstat"), (108, "newfstat"),
  (109, "olduname"), (110, "iopl"), (111, "vhangup"), (113, "vm86old"), (114, "wait4"), (115, "swapoff"), (116, "sysinfo"),
  (117, "ipc"), (118, "fsync"), (119, "sigreturn"), (120, "clone"), (121, "setdomainname"), (122, "uname"), (123, "modify_ldt"),
  (124, "adjtimex"), (125, "mprotect"), (126, "sigprocmask"), (128, "init_module"), (129, "delete_module"), (131, "quotactl"),
  (132, "getpgid"), (133, "fchdir"), (134, "bdflush"), (135, "sysfs"), (136, "personality"), (138, "setfsuid16"),
  (139, "setfsgid16"), (140, "llseek"), (141, "getdents"), (142, "select"), (143, "flock"), (144, "msync"), (145, "readv"),
  (146, "writev"), (147, "getsid"), (148, "fdatasync"), (149, "sysctl"), (150, "mlock"), (151, "munlock"), (152, "mlockall"),
  (153, "munlockall"), (154, "sched_setparam"), (155, "sched_getparam"), (156, "sched_setscheduler"), (157, "sched_getscheduler"),
  (158, "sched_yield"), (159, "sched_get_priority_max"), (160, "sched_get_priority_min"), (161, "sched_rr_get_interval"),
  (162, "nanosleep"), (163, "mremap"), (164, "setresuid16"), (165, "getresuid16"), (166, "vm86"), (168, "poll"),
  (169, "nfsservctl"), (170, "setresgid16"), (171, "getresgid16"), (172, "prctl"), (173, "rt_sigreturn"), (174, "rt_sigaction"),
  (175, "rt_sigprocmask"), (176, "rt_sigpending"), (177, "rt_sigtimedwait"), (178, "rt_sigqueueinfo"), (179, "rt_sigsuspend"),
  (180, "pread64"), (181, "pwrite64"), (182, "chown16"), (183, "getcwd"), (184, "capget"), (185, "capset"), (186, "sigaltstack"),
  (187, "sendfile"), (190, "vfork"), (191, "getrlimit"), (192, "mmap2"), (193, "truncate64"), (194, "ftruncate64"),
  (195, "stat64"), (196, "lstat64"), (197, "fstat64"), (198, "lchown"), (199, "getuid"), (200, "getgid"), (201, "geteuid"),
  (202, "getegid"), (203, "setreuid"), (204, "setregid"), (205, "getgroups"), (206, "setgroups"), (207, "fchown"),
  (208, "setresuid"), (209, "getresuid"), (210, "setresgid"), (211, "getresgid"), (212, "chown"), (213, "setuid"), (214, "setgid"),
  (215, "setfsuid"), (216, "setfsgid"), (217, "pivot_root"), (218, "mincore"), (219, "madvise"), (220, "getdents64"),
  (221, "fcntl64"), (224, "gettid"), (225, "readahead"), (226, "setxattr"), (227, "lsetxattr"), (228, "fsetxattr"),
  (229, "getxattr"), (230, "lgetxattr"), (231, "fgetxattr"), (232, "listxattr"), (233, "llistxattr"), (234, "flistxattr"),
  (235, "removexattr"), (236, "lremovexattr"), (237, "fremovexattr"), (238, "tkill"), (239, "sendfile64"), (240, "futex"),
  (241, "sched_setaffinity"), (242, "sched_getaffinity"), (243, "set_thread_area"), (244, "get_thread_area"), (245, "io_setup"),
  (246, "io_destroy"), (247, "io_getevents"), (248, "io_submit"), (249, "io_cancel"), (250, "fadvise64"), (252, "exit_group"),
  (253, "lookup_dcookie"), (254, "epoll_create"), (255, "epoll_ctl"), (256, "epoll_wait"), (257, "remap_file_pages"),
  (258, "set_tid_address"), (259, "timer_create"), (260, "timer_settime"), (261, "timer_gettime"), (262, "timer_getoverrun"),
  (263, "timer_delete"), (264, "clock_settime"), (265, "clock_gettime"), (266, "clock_getres"), (267, "clock_nanosleep"),
  (268, "statfs64"), (269, "fstatfs64"), (270, "tgkill"), (271, "utimes"), (272, "fadvise64_64"), (274, "mbind"),
  (275, "get_mempolicy"), (276, "set_mempolicy"), (277, "mq_open"), (278, "mq_unlink"), (279, "mq_timedsend"),
  (280, "mq_timedreceive"), (281, "mq_notify"), (282, "mq_getsetattr"), (283, "kexec_load"), (284, "waitid"), (286, "add_key"),
  (287, "request_key"), (288, "keyctl"), (289, "ioprio_set"), (290, "ioprio_get"), (291, "inotify_init"),
  (292, "inotify_add_watch"), (293, "inotify_rm_watch"), (294, "migrate_pages"), (295, "openat"), (296, "mkdirat"),
  (297, "mknodat"), (298, "fchownat"), (299, "futimesat"), (300, "fstatat64"), (301, "unlinkat"), (302, "renameat"),
  (303, "linkat"), (304, "symlinkat"), (305, "readlinkat"), (306, "fchmodat"), (307, "faccessat"), (308, "pselect6"),
  (309, "ppoll"), (310, "unshare"), (311, "set_robust_list"), (312, "get_robust_list"), (313, "splice"), (314, "sync_file_range"),
  (315, "tee"), (316, "vmsplice"), (317, "move_pages"), (318, "getcpu"), (319, "epoll_pwait")]

/-- `SOCKET_SYSCALL_NAMES` of `linux/i386.py`. -/
def i386Socket : List String := ["socketcall"]

/-- `SYSCALL_NAMES` of `linux/powerpc32.py`. -/
def powerpc32 : List (Nat × String) := [
  (0, "restart_syscall"), (1, "exit"), (2, "fork"), (3, "read"), (4, "write"), (5, "open"), (6, "close"), (7, "waitpid"),
  (8, "creat"), (9, "link"), (10, "unlink"), (11, "execve"), (12, "chdir"), (13, "time"), (14, "mknod"), (15, "chmod"),
  (16, "lchown"), (17, "break"), (18, "oldstat"), (19, "lseek"), (20, "getpid"), (21, "mount"), (22, "umount"), (23, "setuid"),
  (24, "getuid"), (25, "stime"), (26, "ptrace"), (27, "alarm"), (28, "oldfstat"), (29, "pause"), (30, "utime"), (31, "stty"),
  (32, "gtty"), (33, "access"), (34, "nice"), (35, "ftime"), (36, "sync"), (37, "kill"), (38, "rename"), (39, "mkdir"),
  (40, "rmdir"), (41, "dup"), (42, "pipe"), (43, "times"), (44, "prof"), (45, "brk"), (46, "setgid"), (47, "getgid"),
  (48, "signal"), (49, "geteuid"), (50, "getegid"), (51, "acct"), (52, "umount2"), (53, "lock"), (54, "ioctl"), (55, "fcntl"),
  (56, "mpx"), (57, "setpgid"), (58, "ulimit"), (59, "oldolduname"), (60, "umask"), (61, "chroot"), (62, "ustat"), (63, "dup2"),
  (64, "getppid"), (65, "getpgrp"), (66, "setsid"), (67, "sigaction"), (68, "sgetmask"), (69, "ssetmask"), (70, "setreuid"),
  (71, "setregid"), (72, "sigsuspend"), (73, "sigpending"), (74, "sethostname"), (75, "setrlimit"), (76, "getrlimit"),
  (77, "getrusage"), (78, "gettimeofday"), (79, "settimeofday"), (80, "getgroups"), (81, "setgroups"), (82, "select"),
  (83, "symlink"), (84, "oldlstat"), (85, "readlink"), (86, "uselib"), (87, "swapon"), (88, "reboot"), (89, "readdir"),
  (90, "mmap"), (91, "munmap"), (92, "truncate"), (93, "ftruncate"), (94, "fchmod"), (95, "fchown"), (96, "getpriority"),
  (97, "setpriority"), (98, "profil"), (99, "statfs"), (100, "fstatfs"), (101, "ioperm"), (102, "socketcall"), (103, "syslog"),
  (104, "setitimer"), (105, "getitimer"), (106, "stat"), (107, "lstat"), (108, "fstat"), (109, "olduname"), (110, "iopl"),
  (111, "vhangup"), (112, "idle"), (113, "vm86"), (114, "wait4"), (115, "swapoff"), (116, "sysinfo"), (117, "ipc"), (118, "fsync"),
  (119, "sigreturn"), (120, "clone"), (121, "setdomainname"), (122, "uname"), (123, "modify_ldt"), (124, "adjtimex"),
  (125, "mprotect"), (126, "sigprocmask"), (127, "create_module"), (128, "init_module"), (129, "delete_module"),
  (130, "get_kernel_syms"), (131, "quotactl"), (132, "getpgid"), (133, "fchdir"), (134, "bdflush"), (135, "sysfs"),
  (136, "personality"), (137, "afs_syscall"), (138, "setfsuid"), (139, "setfsgid"), (140, "_llseek"), (141, "getdents"),
  (142, "_newselect"), (143, "flock"), (144, "msync"), (145, "readv"), (146, "writev"), (147, "getsid"), (148, "fdatasync"),
  (149, "_sysctl"), (150, "mlock"), (151, "munlock"), (152, "mlockall"), (153, "munlockall"), (154, "sched_setparam"),
  (155, "sched_getparam"), (156, "sched_setscheduler"), (157, "sched_getscheduler"), (158, "sched_yield"),
  (159, "sched_get_priority_max"), (160, "sched_get_priority_min"), (161, "sched_rr_get_interval"), (162, "nanosleep"),
  (163, "mremap"), (164, "setresuid"), (165, "getresuid"), (166, "query_module"), (167, "poll"), (168, "nfsservctl"),
  (169, "setresgid"), (170, "getresgid"), (171, "prctl"), (172, "rt_sigreturn"), (173, "rt_sigaction"), (174, "rt_sigprocmask"),
  (175, "rt_sigpending"), (176, "rt_sigtimedwait"), (177, ""), (178, ""), (179, "pread64"), (180, "pwrite64"), (181, "chown"),
  (182, "getcwd"), (183, "capget"), (184, "capset"), (185, "sigaltstack"), (186, "sendfile"), (187, "getpmsg"), (188, ""),
  (189, "vfork"), (190, "ugetrlimit"), (191, "readahead"), (192, "mmap2"), (193, "truncate64"), (194, "ftruncate64"),
  (195, "stat64"), (196, "lstat64"), (197, "fstat64"), (198, ""), (199, ""), (200, ""), (201, ""), (202, "getdents64"),
  (203, "pivot_root"), (204, "fcntl64"), (205, "madvise"), (206, "mincore"), (207, "gettid"), (208, "tkill"), (209, "setxattr"),
  (210, "lsetxattr"), (211, "fsetxattr"), (212, "getxattr"), (213, "lgetxattr"), (214, "fgetxattr"), (215, "listxattr"),
  (216, "llistxattr"), (217, "flistxattr"), (218, "removexattr"), (219, "lremovexattr"), (220, "fremovexattr"), (221, "futex"),
  (222, "sched_setaffinity"), (223, "sched_getaffinity"), (225, "tuxcall"), (226, "sendfile64"), (227, "io_setup"),
  (228, "io_destroy"), (229, "io_getevents"), (230, "io_submit"), (231, "io_cancel"), (232, "set_tid_address"), (233, "fadvise64"),
  (234, "exit_group"), (235, "lookup_dcookie"), (236, "epoll_create"), (237, "epoll_ctl"), (238, "epoll_wait"),
  (239, "remap_file_pages"), (240, "timer_create"), (241, "timer_settime"), (242, "timer_gettime"), (243, "timer_getoverrun"),
  (244, "timer_delete"), (245, "clock_settime"), (246, "clock_gettime"), (247, "clock_getres"), (248, "clock_nanosleep"),
  (249, "swapcontext"), (250, "tgkill"), (251, "utimes"), (252, "statfs64"), (253, "fstatfs64"), (254, "fadvise64_64"),
  (255, "rtas"), (256, "sys_debug_setcontext"), (258, "migrate_pages"), (259, "mbind"), (260, "get_mempolicy"),
  (261, "set_mempolicy"), (262, "mq_open"), (263, "mq_unlink"), (264, "mq_timedsend"), (265, "mq_timedreceive"),
  (266, "mq_notify"), (267, "mq_getsetattr"), (268, "kexec_load"), (269, "add_key"), (270, "request_key"), (271, "keyctl"),
  (272, "waitid"), (273, "ioprio_set"), (274, "ioprio_get"), (275, "inotify_init"), (276, "inotify_add_watch"),
  (277, "inotify_rm_watch"), (280, "pselect6"), (281, "ppoll"), (282, "unshare"), (283, "splice"), (284, "tee"), (285, "vmsplice"),
  (286, "openat"), (287, "mkdirat"), (288, "mknodat"), (289, "fchownat"), (290, "futimesat"), (291, "fstatat64"),
  (292, "unlinkat"), (293, "renameat"), (294, "linkat"), (295, "symlinkat"), (296, "readlinkat"), (297, "fchmodat"),
  (298, "faccessat"), (299, "get_robust_list"), (300, "set_robust_list"), (301, "move_pages"), (302, "getcpu"),
  (303, "epoll_pwait"), (304, "utimensat"), (305, "signalfd"), (306, "timerfd_create"), (307, "eventfd"),
  (308, "sync_file_range2"), (309, "fallocate"), (310, "subpage_prot"), (311, "timerfd_settime"), (312, "timerfd_gettime"),
  (313, "signalfd4"), (314, "eventfd2"), (315, "epoll_create1"), (316, "dup3"), (317, "pipe2"), (318, "inotify_init1"),
  (319, "perf_event_open"), (320, "preadv"), (321, "pwritev"), (322, "rt_tgsigqueueinfo"), (323, "fanotify_init"),
  (324, "fanotify_mark"), (325, "prlimit64"), (326, "socket"), (327, "bind"), (328, "connect"), (329, "listen"), (330, "accept"),
  (331, "getsockname"), (332, "getpeername"), (333, "socketpair"), (334, "send"), (335, "sendto"), (336, "recv"),
  (337, "recvfrom"), (338, "shutdown"), (339, "setsockopt"), (340, "getsockopt"), (341, "sendmsg"), (342, "recvmsg"),
  (343, "recvmmsg"), (344, "accept4"), (345, "name_to_handle_at"), (346, "open_by_handle_at"), (347, "clock_adjtime"),
  (348, "syncfs"), (349, "sendmmsg"), (350, "setns"), (351, "process_vm_readv"), (352, "process_vm_writev"), (353, "finit_module"),
  (354, "kcmp"), (355, "sched_setattr"), (356, "sched_getattr"), (357, "renameat2"), (358, "seccomp"), (359, "getrandom"),
  (360, "memfd_create"), (361, "bpf"), (362, "execveat"), (363, "switch_endian"), (364, "userfaultfd"), (365, "membarrier"),
  (378, "mlock2"), (379, "copy_file_range"), (380, "preadv2"), (381, "pwritev2"), (382, "kexec_file_load"), (383, "statx"),
  (384, "pkey_alloc"), (385, "pkey_free"), (386, "pkey_mprotect"), (387, "rseq"), (388, "io_pgetevents"), (393, "semget"),
  (394, "semctl"), (395, "shmget"), (396, "shmctl"), (397, "shmat"), (398, "shmdt"), (399, "msgget"), (400, "msgsnd"),
  (401, "msgrcv"), (402, "msgctl"), (403, "clock_gettime64"), (404, "clock_settime64"), (405, "clock_adjtime64"),
  (406, "clock_getres_time64"), (407, "clock_nanosleep_time64"), (408, "timer_gettime64"), (409, "timer_settime64"),
  (410, "timerfd_gettime64"), (411, "timerfd_settime64"), (412, "utimensat_time64"), (413, "pselect6_time64"),
  (414, "ppoll_time64"), (416, "io_pgetevents_time64"), (417, "recvmmsg_time64"), (418, "mq_timedsend_time64"),
  (419, "mq_timedreceive_time64"), (420, "semtimedop_time64"), (421, "rt_sigtimedwait_time64"), (422, "futex_time64"),
  (423, "sched_rr_get_interval_time64"), (424, "pidfd_send_signal"), (425, "io_uring_setup"), (426, "io_uring_enter"),
  (427, "io_uring_register"), (428, "open_tree"), (429, "move_mount"), (430, "fsopen"), (431, "fsconfig"), (432, "fsmount"),
  (433, "fspick"), (434, "pidfd_open"), (435, "clone3"), (437, "openat2"), (438, "pidfd_getfd")]

/-- `SOCKET_SYSCALL_NAMES` of `linux/powerpc32.py`. -/
def powerpc32Socket : List String := ["socket", "socketpair", "connect", "sendto", "recvfrom", "sendmsg", "recvmsg", "bind", "listen", "accept", "getsockname", "getpeername", "getsockopt", "setsockopt", "shutdown"]

/-- `SYSCALL_NAMES` of `linux/powerpc64.py`. -/
def powerpc64 : List (Nat × String) := [
  (0, "restart_syscall"), (1, "exit"), (2, "fork"), (3, "read"), (4, "write"), (5, "open"), (6, "close"), (7, "waitpid"),
  (8, "creat"), (9, "link"), (10, "unlink"), (11, "execve"), (12, "chdir"), (13, "time"), (14, "mknod"), (15, "chmod"),
  (16, "lchown"), (17, "break"), (18, "oldstat"), (19, "lseek"), (20, "getpid"), (21, "mount"), (22, "umount"), (23, "setuid"),
  (24, "getuid"), (25, "stime"), (26, "ptrace"), (27, "alarm"), (28, "oldfstat"), (29, "pause"), (30, "utime"), (31, "stty"),
  (32, "gtty"), (33, "access"), (34, "nice"), (35, "ftime"), (36, "sync"), (37, "kill"), (38, "rename"), (39, "mkdir"),
  (40, "rmdir"), (41, "dup"), (42, "pipe"), (43, "times"), (44, "prof"), (45, "brk"), (46, "setgid"), (47, "getgid"),
  (48, "signal"), (49, "geteuid"), (50, "getegid"), (51, "acct"), (52, "umount2"), (53, "lock"), (54, "ioctl"), (55, "fcntl"),
  (56, "mpx"), (57, "setpgid"), (58, "ulimit"), (59, "oldolduname"), (60, "umask"), (61, "chroot"), (62, "ustat"), (63, "dup2"),
  (64, "getppid"), (65, "getpgrp"), (66, "setsid"), (67, "sigaction"), (68, "sgetmask"), (69, "ssetmask"), (70, "setreuid"),
  (71, "setregid"), (72, "sigsuspend"), (73, "sigpending"), (74, "sethostname"), (75, "setrlimit"), (76, "getrlimit"),
  (77, "getrusage"), (78, "gettimeofday"), (79, "settimeofday"), (80, "getgroups"), (81, "setgroups"), (82, "select"),
  (83, "symlink"), (84, "oldlstat"), (85, "readlink"), (86, "uselib"), (87, "swapon"), (88, "reboot"), (89, "readdir"),
  (90, "mmap"), (91, "munmap"), (92, "truncate"), (93, "ftruncate"), (94, "fchmod"), (95, "fchown"), (96, "getpriority"),
  (97, "setpriority"), (98, "profil"), (99, "statfs"), (100, "fstatfs"), (101, "ioperm"), (102, "socketcall"), (103, "syslog"),
  (104, "setitimer"), (105, "getitimer"), (106, "stat"), (107, "lstat"), (108, "fstat"), (109, "olduname"), (110, "iopl"),
  (111, "vhangup"), (112, "idle"), (113, "vm86"), (114, "wait4"), (115, "swapoff"), (116, "sysinfo"), (117, "ipc"), (118, "fsync"),
  (119, "sigreturn"), (120, "clone"), (121, "setdomainname"), (122, "uname"), (123, "modify_ldt"), (124, "adjtimex"),
  (125, "mprotect"), (126, "sigprocmask"), (127, "create_module"), (128, "init_module"), (129, "delete_module"),
  (130, "get_kernel_syms"), (131, "quotactl"), (132, "getpgid"), (133, "fchdir"), (134, "bdflush"), (135, "sysfs"),
  (136, "personality"), (137, "afs_syscall"), (138, "setfsuid"), (139, "setfsgid"), (140, "_llseek"), (141, "getdents"),
  (142, "_newselect"), (143, "flock"), (144, "msync"), (145, "readv"), (146, "writev"), (147, "getsid"), (148, "fdatasync"),
  (149, "_sysctl"), (150, "mlock"), (151, "munlock"), (152, "mlockall"), (153, "munlockall"), (154, "sched_setparam"),
  (155, "sched_getparam"), (156, "sched_setscheduler"), (157, "sched_getscheduler"), (158, "sched_yield"),
  (159, "sched_get_priority_max"), (160, "sched_get_priority_min"), (161, "sched_rr_get_interval"), (162, "nanosleep"),
  (163, "mremap"), (164, "setresuid"), (165, "getresuid"), (166, "query_module"), (167, "poll"), (168, "nfsservctl"),
  (169, "setresgid"), (170, "getresgid"), (171, "prctl"), (172, "rt_sigreturn"), (173, "rt_sigaction"), (174, "rt_sigprocmask"),
  (175, "rt_sigpending"), (176, "rt_sigtimedwait"), (177, "rt_sigqueueinfo"), (178, "rt_sigsuspend"), (179, "pread64"),
  (180, "pwrite64"), (181, "chown"), (182, "getcwd"), (183, "capget"), (184, "capset"), (185, "sigaltstack"), (186, "sendfile"),
  (187, "getpmsg"), (188, "putpmsg"), (189, "vfork"), (190, "ugetrlimit"), (191, "readahead"), (198, "pciconfig_read"),
  (199, "pciconfig_write"), (200, "pciconfig_iobase"), (201, "multiplexer"), (202, "getdents64"), (203, "pivot_root"),
  (205, "madvise"), (206, "mincore"), (207, "gettid"), (208, "tkill"), (209, "setxattr"), (210, "lsetxattr"), (211, "fsetxattr"),
  (212, "getxattr"), (213, "lgetxattr"), (214, "fgetxattr"), (215, "listxattr"), (216, "llistxattr"), (217, "flistxattr"),
  (218, "removexattr"), (219, "lremovexattr"), (220, "fremovexattr"), (221, "futex"), (222, "sched_setaffinity"),
  (223, "sched_getaffinity"), (225, "tuxcall"), (227, "io_setup"), (228, "io_destroy"), (229, "io_getevents"), (230, "io_submit"),
  (231, "io_cancel"), (232, "set_tid_address"), (233, "fadvise64"), (234, "exit_group"), (235, "lookup_dcookie"),
  (236, "epoll_create"), (237, "epoll_ctl"), (238, "epoll_wait"), (239, "remap_file_pages"), (240, "timer_create"),
  (241, "timer_settime"), (242, "timer_gettime"), (243, "timer_getoverrun"), (244, "timer_delete"), (245, "clock_settime"),
  (246, "clock_gettime"), (247, "clock_getres"), (248, "clock_nanosleep"), (249, "swapcontext"), (250, "tgkill"), (251, "utimes"),
  (252, "statfs64"), (253, "fstatfs64"), (255, "rtas"), (256, "sys_debug_setcontext"), (258, "migrate_pages"), (259, "mbind"),
  (260, "get_mempolicy"), (261, "set_mempolicy"), (262, "mq_open"), (263, "mq_unlink"), (264, "mq_timedsend"),
  (265, "mq_timedreceive"), (266, "mq_notify"), (267, "mq_getsetattr"), (268, "kexec_load"), (269, "add_key"),
  (270, "request_key"), (271, "keyctl"), (272, "waitid"), (273, "ioprio_set"), (274, "ioprio_get"), (275, "inotify_init"),
  (276, "inotify_add_watch"), (277, "inotify_rm_watch"), (280, "pselect6"), (281, "ppoll"), (282, "unshare"), (283, "splice"),
  (284, "tee"), (285, "vmsplice"), (286, "openat"), (287, "mkdirat"), (288, "mknodat"), (289, "fchownat"), (290, "futimesat"),
  (291, "newfstatat"), (292, "unlinkat"), (293, "renameat"), (294, "linkat"), (295, "symlinkat"), (296, "readlinkat"),
  (297, "fchmodat"), (298, "faccessat"), (299, "get_robust_list"), (300, "set_robust_list"), (301, "move_pages"), (302, "getcpu"),
  (303, "epoll_pwait"), (304, "utimensat"), (305, "signalfd"), (306, "timerfd_create"), (307, "eventfd"),
  (308, "sync_file_range2"), (309, "fallocate"), (310, "subpage_prot"), (311, "timerfd_settime"), (312, "timerfd_gettime"),
  (313, "signalfd4"), (314, "eventfd2"), (315, "epoll_create1"), (316, "dup3"), (317, "pipe2"), (318, "inotify_init1"),
  (319, "perf_event_open"), (320, "preadv"), (321, "pwritev"), (322, "rt_tgsigqueueinfo"), (323, "fanotify_init"),
  (324, "fanotify_mark"), (325, "prlimit64"), (326, "socket"), (327, "bind"), (328, "connect"), (329, "listen"), (330, "accept"),
  (331, "getsockname"), (332, "getpeername"), (333, "socketpair"), (334, "send"), (335, "sendto"), (336, "recv"),
  (337, "recvfrom"), (338, "shutdown"), (339, "setsockopt"), (340, "getsockopt"), (341, "sendmsg"), (342, "recvmsg"),
  (343, "recvmmsg"), (344, "accept4"), (345, "name_to_handle_at"), (346, "open_by_handle_at"), (347, "clock_adjtime"),
  (348, "syncfs"), (349, "sendmmsg"), (350, "setns"), (351, "process_vm_readv"), (352, "process_vm_writev"), (353, "finit_module"),
  (354, "kcmp"), (355, "sched_setattr"), (356, "sched_getattr"), (357, "renameat2"), (358, "seccomp"), (359, "getrandom"),
  (360, "memfd_create"), (361, "bpf"), (362, "execveat"), (363, "switch_endian"), (364, "userfaultfd"), (365, "membarrier"),
  (378, "mlock2"), (379, "copy_file_range"), (380, "preadv2"), (381, "pwritev2"), (382, "kexec_file_load"), (383, "statx"),
  (384, "pkey_alloc"), (385, "pkey_free"), (386, "pkey_mprotect"), (387, "rseq"), (388, "io_pgetevents"), (392, "semtimedop"),
  (393, "semget"), (394, "semctl"), (395, "shmget"), (396, "shmctl"), (397, "shmat"), (398, "shmdt"), (399, "msgget"),
  (400, "msgsnd"), (401, "msgrcv"), (402, "msgctl"), (424, "pidfd_send_signal"), (425, "io_uring_setup"), (426, "io_uring_enter"),
  (427, "io_uring_register"), (428, "open_tree"), (429, "move_mount"), (430, "fsopen"), (431, "fsconfig"), (432, "fsmount"),
  (433, "fspick"), (434, "pidfd_open"), (435, "clone3"), (437, "openat2"), (438, "pidfd_getfd")]

/-- `SOCKET_SYSCALL_NAMES` of `linux/powerpc64.py`. -/
def powerpc64Socket : List String := ["socket", "socketpair", "connect", "sendto", "recvfrom", "sendmsg", "recvmsg", "bind", "listen", "accept", "getsockname", "getpeername", "getsockopt", "setsockopt", "shutdown"]

/-- `SYSCALL_NAMES` of `linux/aarch64.py`. -/
def aarch64 : List (Nat × String) := [
  (0, "io_setup"), (1, "io_destroy"), (2, "io_submit"), (3, "io_cancel"), (4, "io_getevents"), (5, "setxattr"), (6, "lsetxattr"),
  (7, "fsetxattr"), (8, "getxattr"), (9, "lgetxattr"), (10, "fgetxattr"), (11, "listxattr"), (12, "llistxattr"),
  (13, "flistxattr"), (14, "removexattr"), (15, "lremovexattr"), (16, "fremovexattr"), (17, "getcwd"), (18, "lookup_dcookie"),
  (19, "eventfd2"), (20, "epoll_create1"), (21, "epoll_ctl"), (22, "epoll_pwait"), (23, "dup"), (24, "dup3"), (25, "fcntl"),
  (26, "inotify_init1"), (27, "inotify_add_watch"), (28, "inotify_rm_watch"), (29, "ioctl"), (30, "ioprio_set"),
  (31, "ioprio_get"), (32, "flock"), (33, "mknodat"), (34, "mkdirat"), (35, "unlinkat"), (36, "symlinkat"), (37, "linkat"),
  (38, "renameat"), (39, "umount2"), (40, "mount"), (41, "pivot_root"), (42, "nfsservctl"), (43, "statfs"), (44, "fstatfs"),
  (45, "truncate"), (46, "ftruncate"), (47, "fallocate"), (48, "faccessat"), (49, "chdir"), (50, "fchdir"), (51, "chroot"),
  (52, "fchmod"), (53, "fchmodat"), (54, "fchownat"), (55, "fchown"), (56, "openat"), (57, "close"), (58, "vhangup"),
  (59, "pipe2"), (60, "quotactl"), (61, "getdents64"), (62, "lseek"), (63, "read"), (64, "write"), (65, "readv"), (66, "writev"),
  (67, "pread64"), (68, "pwrite64"), (69, "preadv"), (70, "pwritev"), (71, "sendfile"), (72, "pselect6"), (73, "ppoll"),
  (74, "signalfd4"), (75, "vmsplice"), (76, "splice"), (77, "tee"), (78, "readlinkat"), (79, "newfstatat"), (80, "fstat"),
  (81, "sync"), (82, "fsync"), (83, "fdatasync"), (84, "sync_file_range"), (85, "timerfd_create"), (86, "timerfd_settime"),
  (87, "timerfd_gettime"), (88, "utimensat"), (89, "acct"), (90, "capget"), (91, "capset"), (92, "personality"), (93, "exit"),
  (94, "exit_group"), (95, "waitid"), (96, "set_tid_address"), (97, "unshare"), (98, "futex"), (99, "set_robust_list"),
  (100, "get_robust_list"), (101, "nanosleep"), (102, "getitimer"), (103, "setitimer"), (104, "kexec_load"), (105, "init_module"),
  (106, "delete_module"), (107, "timer_create"), (108, "timer_gettime"), (109, "timer_getoverrun"), (110, "timer_settime"),
  (111, "timer_delete"), (112, "clock_settime"), (113, "clock_gettime"), (114, "clock_getres"), (115, "clock_nanosleep"),
  (116, "syslog"), (117, "ptrace"), (118, "sched_setparam"), (119, "sched_setscheduler"), (120, "sched_getscheduler"),
  (121, "sched_getparam"), (122, "sched_setaffinity"), (123, "sched_getaffinity"), (124, "sched_yield"),
  (125, "sched_get_priority_max"), (126, "sched_get_priority_min"), (127, "sched_rr_get_interval"), (128, "restart_syscall"),
  (129, "kill"), (130, "tkill"), (131, "tgkill"), (132, "sigaltstack"), (133, "rt_sigsuspend"), (134, "rt_sigaction"),
  (135, "rt_sigprocmask"), (136, "rt_sigpending"), (137, "rt_sigtimedwait"), (138, "rt_sigqueueinfo"), (139, "rt_sigreturn"),
  (140, "setpriority"), (141, "getpriority"), (142, "reboot"), (143, "setregid"), (144, "setgid"), (145, "setreuid"),
  (146, "setuid"), (147, "setresuid"), (148, "getresuid"), (149, "setresgid"), (150, "getresgid"), (151, "setfsuid"),
  (152, "setfsgid"), (153, "times"), (154, "setpgid"), (155, "getpgid"), (156, "getsid"), (157, "setsid"), (158, "getgroups"),
  (159, "setgroups"), (160, "uname"), (161, "sethostname"), (162, "setdomainname"), (163, "getrlimit"), (164, "setrlimit"),
  (165, "getrusage"), (166, "umask"), (167, "prctl"), (168, "getcpu"), (169, "gettimeofday"), (170, "settimeofday"),
  (171, "adjtimex"), (172, "getpid"), (173, "getppid"), (174, "getuid"), (175, "geteuid"), (176, "getgid"), (177, "getegid"),
  (178, "gettid"), (179, "sysinfo"), (180, "mq_open"), (181, "mq_unlink"), (182, "mq_timedsend"), (183, "mq_timedreceive"),
  (184, "mq_notify"), (185, "mq_getsetattr"), (186, "msgget"), (187, "msgctl"), (188, "msgrcv"), (189, "msgsnd"), (190, "semget"),
  (191, "semctl"), (192, "semtimedop"), (193, "semop"), (194, "shmget"), (195, "shmctl"), (196, "shmat"), (197, "shmdt"),
  (198, "socket"), (199, "socketpair"), (200, "bind"), (201, "listen"), (202, "accept"), (203, "connect"), (204, "getsockname"),
  (205, "getpeername"), (206, "sendto"), (207, "recvfrom"), (208, "setsockopt"), (209, "getsockopt"), (210, "shutdown"),
  (211, "sendmsg"), (212, "recvmsg"), (213, "readahead"), (214, "brk"), (215, "munmap"), (216, "mremap"), (217, "add_key"),
  (218, "request_key"), (219, "keyctl"), (220, "clone"), (221, "execve"), (222, "mmap"), (223, "fadvise64"), (224, "swapon"),
  (225, "swapoff"), (226, "mprotect"), (227, "msync"), (228, "mlock"), (229, "munlock"), (230, "mlockall"), (231, "munlockall"),
  (232, "mincore"), (233, "madvise"), (234, "remap_file_pages"), (235, "mbind"), (236, "get_mempolicy"), (237, "set_mempolicy"),
  (238, "migrate_pages"), (239, "move_pages"), (240, "rt_tgsigqueueinfo"), (241, "perf_event_open"), (242, "accept4"),
  (243, "recvmmsg"), (260, "wait4"), (261, "prlimit64"), (262, "fanotify_init"), (263, "fanotify_mark"),
  (264, "name_to_handle_at"), (265, "open_by_handle_at"), (266, "clock_adjtime"), (267, "syncfs"), (268, "setns"),
  (269, "sendmmsg"), (270, "process_vm_readv"), (271, "process_vm_writev"), (272, "kcmp"), (273, "finit_module"),
  (274, "sched_setattr"), (275, "sched_getattr"), (276, "renameat2"), (277, "seccomp"), (278, "getrandom"), (279, "memfd_create"),
  (280, "bpf"), (281, "execveat"), (282, "userfaultfd"), (283, "membarrier"), (284, "mlock2"), (285, "copy_file_range"),
  (286, "preadv2"), (287, "pwritev2"), (288, "pkey_mprotect"), (289, "pkey_alloc"), (290, "pkey_free"), (291, "statx"),
  (292, "io_pgetevents"), (293, "rseq"), (294, "kexec_file_load"), (424, "pidfd_send_signal"), (425, "io_uring_setup"),
  (426, "io_uring_enter"), (427, "io_uring_register"), (428, "open_tree"), (429, "move_mount"), (430, "fsopen"), (431, "fsconfig"),
  (432, "fsmount"), (433, "fspick"), (434, "pidfd_open"), (435, "clone3"), (436, "close_range"), (437, "openat2"),
  (438, "pidfd_getfd"), (439, "faccessat2")]

/-- `SOCKET_SYSCALL_NAMES` of `linux/aarch64.py`. -/
def aarch64Socket : List String := ["socket", "socketpair", "connect", "sendto", "recvfrom", "sendmsg", "recvmsg", "bind", "listen", "accept", "getsockname", "getpeername", "getsockopt", "setsockopt", "shutdown"]

/-- `SYSCALL_NAMES` of `linux/riscv32.py`. -/
def riscv32 : List (Nat × String) := [
  (0, "io_setup"), (1, "io_destroy"), (2, "io_submit"), (3, "io_cancel"), (5, "setxattr"), (6, "lsetxattr"), (7, "fsetxattr"),
  (8, "getxattr"), (9, "lgetxattr"), (10, "fgetxattr"), (11, "listxattr"), (12, "llistxattr"), (13, "flistxattr"),
  (14, "removexattr"), (15, "lremovexattr"), (16, "fremovexattr"), (17, "getcwd"), (18, "lookup_dcookie"), (19, "eventfd2"),
  (20, "epoll_create1"), (21, "epoll_ctl"), (22, "epoll_pwait"), (23, "dup"), (24, "dup3"), (25, "fcntl64"), (26, "inotify_init1"),
  (27, "inotify_add_watch"), (28, "inotify_rm_watch"), (29, "ioctl"), (30, "ioprio_set"), (31, "ioprio_get"), (32, "flock"),
  (33, "mknodat"), (34, "mkdirat"), (35, "unlinkat"), (36, "symlinkat"), (37, "linkat"), (39, "umount2"), (40, "mount"),
  (41, "pivot_root"), (42, "nfsservctl"), (43, "statfs64"), (44, "fstatfs64"), (45, "truncate64"), (46, "ftruncate64"),
  (47, "fallocate"), (48, "faccessat"), (49, "chdir"), (50, "fchdir"), (51, "chroot"), (52, "fchmod"), (53, "fchmodat"),
  (54, "fchownat"), (55, "fchown"), (56, "openat"), (57, "close"), (58, "vhangup"), (59, "pipe2"), (60, "quotactl"),
  (61, "getdents64"), (62, "llseek"), (63, "read"), (64, "write"), (65, "readv"), (66, "writev"), (67, "pread64"),
  (68, "pwrite64"), (69, "preadv"), (70, "pwritev"), (71, "sendfile64"), (74, "signalfd4"), (75, "vmsplice"), (76, "splice"),
  (77, "tee"), (78, "readlinkat"), (81, "sync"), (82, "fsync"), (83, "fdatasync"), (84, "sync_file_range"), (85, "timerfd_create"),
  (89, "acct"), (90, "capget"), (91, "capset"), (92, "personality"), (93, "exit"), (94, "exit_group"), (95, "waitid"),
  (96, "set_tid_address"), (97, "unshare"), (99, "set_robust_list"), (100, "get_robust_list"), (102, "getitimer"),
  (103, "setitimer"), (104, "kexec_load"), (105, "init_module"), (106, "delete_module"), (107, "timer_create"),
  (109, "timer_getoverrun"), (111, "timer_delete"), (116, "syslog"), (117, "ptrace"), (118, "sched_setparam"),
  (119, "sched_setscheduler"), (120, "sched_getscheduler"), (121, "sched_getparam"), (122, "sched_setaffinity"),
  (123, "sched_getaffinity"), (124, "sched_yield"), (125, "sched_get_priority_max"), (126, "sched_get_priority_min"),
  (128, "restart_syscall"), (129, "kill"), (130, "tkill"), (131, "tgkill"), (132, "sigaltstack"), (133, "rt_sigsuspend"),
  (134, "rt_sigaction"), (135, "rt_sigprocmask"), (136, "rt_sigpending"), (138, "rt_sigqueueinfo"), (139, "rt_sigreturn"),
  (140, "setpriority"), (141, "getpriority"), (142, "reboot"), (143, "setregid"), (144, "setgid"), (145, "setreuid"),
  (146, "setuid"), (147, "setresuid"), (148, "getresuid"), (149, "setresgid"), (150, "getresgid"), (151, "setfsuid"),
  (152, "setfsgid"), (153, "times"), (154, "setpgid"), (155, "getpgid"), (156, "getsid"), (157, "setsid"), (158, "getgroups"),
  (159, "setgroups"), (160, "uname"), (161, "sethostname"), (162, "setdomainname"), (165, "getrusage"), (166, "umask"),
  (167, "prctl"), (168, "getcpu"), (172, "getpid"), (173, "getppid"), (174, "getuid"), (175, "geteuid"), (176, "getgid"),
  (177, "getegid"), (178, "gettid"), (179, "sysinfo"), (180, "mq_open"), (181, "mq_unlink"), (184, "mq_notify"),
  (185, "mq_getsetattr"), (186, "msgget"), (187, "msgctl"), (188, "msgrcv"), (189, "msgsnd"), (190, "semget"), (191, "semctl"),
  (193, "semop"), (194, "shmget"), (195, "shmctl"), (196, "shmat"), (197, "shmdt"), (198, "socket"), (199, "socketpair"),
  (200, "bind"), (201, "listen"), (202, "accept"), (203, "connect"), (204, "getsockname"), (205, "getpeername"), (206, "sendto"),
  (207, "recvfrom"), (208, "setsockopt"), (209, "getsockopt"), (210, "shutdown"), (211, "sendmsg"), (212, "recvmsg"),
  (213, "readahead"), (214, "brk"), (215, "munmap"), (216, "mremap"), (217, "add_key"), (218, "request_key"), (219, "keyctl"),
  (220, "clone"), (221, "execve"), (222, "mmap2"), (223, "fadvise64_64"), (224, "swapon"), (225, "swapoff"), (226, "mprotect"),
  (227, "msync"), (228, "mlock"), (229, "munlock"), (230, "mlockall"), (231, "munlockall"), (232, "mincore"), (233, "madvise"),
  (234, "remap_file_pages"), (235, "mbind"), (236, "get_mempolicy"), (237, "set_mempolicy"), (238, "migrate_pages"),
  (239, "move_pages"), (240, "rt_tgsigqueueinfo"), (241, "perf_event_open"), (242, "accept4"), (259, "riscv_flush_icache"),
  (261, "prlimit64"), (262, "fanotify_init"), (263, "fanotify_mark"), (264, "name_to_handle_at"), (265, "open_by_handle_at"),
  (267, "syncfs"), (268, "setns"), (269, "sendmmsg"), (270, "process_vm_readv"), (271, "process_vm_writev"), (272, "kcmp"),
  (273, "finit_module"), (274, "sched_setattr"), (275, "sched_getattr"), (276, "renameat2"), (277, "seccomp"), (278, "getrandom"),
  (279, "memfd_create"), (280, "bpf"), (281, "execveat"), (282, "userfaultfd"), (283, "membarrier"), (284, "mlock2"),
  (285, "copy_file_range"), (286, "preadv2"), (287, "pwritev2"), (288, "pkey_mprotect"), (289, "pkey_alloc"), (290, "pkey_free"),
  (291, "statx"), (293, "rseq"), (294, "kexec_file_load"), (403, "clock_gettime64"), (404, "clock_settime64"),
  (405, "clock_adjtime64"), (406, "clock_getres_time64"), (407, "clock_nanosleep_time64"), (408, "timer_gettime64"),
  (409, "timer_settime64"), (410, "timerfd_gettime64"), (411, "timerfd_settime64"), (412, "utimensat_time64"),
  (413, "pselect6_time64"), (414, "ppoll_time64"), (416, "io_pgetevents_time64"), (417, "recvmmsg_time64"),
  (418, "mq_timedsend_time64"), (419, "mq_timedreceive_time64"), (420, "semtimedop_time64"), (421, "rt_sigtimedwait_time64"),
  (422, "futex_time64"), (423, "sched_rr_get_interval_time64"), (424, "pidfd_send_signal"), (425, "io_uring_setup"),
  (426, "io_uring_enter"), (427, "io_uring_register"), (428, "open_tree"), (429, "move_mount"), (430, "fsopen"), (431, "fsconfig"),
  (432, "fsmount"), (433, "fspick"), (434, "pidfd_open"), (435, "clone3"), (436, "close_range"), (437, "openat2"),
  (438, "pidfd_getfd"), (439, "faccessat2"), (440, "process_madvise"), (441, "epoll_pwait2"), (442, "mount_setattr"),
  (443, "quotactl_fd"), (444, "landlock_create_ruleset"), (445, "landlock_add_rule"), (446, "landlock_restrict_self"),
  (447, "memfd_secret"), (448, "process_mrelease"), (449, "futex_waitv"), (450, "set_mempolicy_home_node")]

/-- `SOCKET_SYSCALL_NAMES` of `linux/riscv32.py`. -/
def riscv32Socket : List String := ["socket", "socketpair", "connect", "sendto", "recvfrom", "sendmsg", "recvmsg", "bind", "listen", "accept", "getsockname", "getpeername", "getsockopt", "setsockopt", "shutdown"]

/-- `SYSCALL_NAMES` of `linux/riscv64.py`. -/
def riscv64 : List (Nat × String) := [
  (0, "io_setup"), (1, "io_destroy"), (2, "io_submit"), (3, "io_cancel"), (4, "io_getevents"), (5, "setxattr"), (6, "lsetxattr"),
  (7, "fsetxattr"), (8, "getxattr"), (9, "lgetxattr"), (10, "fgetxattr"), (11, "listxattr"), (12, "llistxattr"),
  (13, "flistxattr"), (14, "removexattr"), (15, "lremovexattr"), (16, "fremovexattr"), (17, "getcwd"), (18, "lookup_dcookie"),
  (19, "eventfd2"), (20, "epoll_create1"), (21, "epoll_ctl"), (22, "epoll_pwait"), (23, "dup"), (24, "dup3"), (25, "fcntl"),
  (26, "inotify_init1"), (27, "inotify_add_watch"), (28, "inotify_rm_watch"), (29, "ioctl"), (30, "ioprio_set"),
  (31, "ioprio_get"), (32, "flock"), (33, "mknodat"), (34, "mkdirat"), (35, "unlinkat"), (36, "symlinkat"), (37, "linkat"),
  (38, "renameat"), (39, "umount2"), (40, "mount"), (41, "pivot_root"), (42, "nfsservctl"), (43, "statfs"), (44, "fstatfs"),
  (45, "truncate"), (46, "ftruncate"), (47, "fallocate"), (48, "faccessat"), (49, "chdir"), (50, "fchdir"), (51, "chroot"),
  (52, "fchmod"), (53, "fchmodat"), (54, "fchownat"), (55, "fchown"), (56, "openat"), (57, "close"), (58, "vhangup"),
  (59, "pipe2"), (60, "quotactl"), (61, "getdents64"), (62, "lseek"), (63, "read"), (64, "write"), (65, "readv"), (66, "writev"),
  (67, "pread64"), (68, "pwrite64"), (69, "preadv"), (70, "pwritev"), (71, "sendfile"), (72, "pselect6"), (73, "ppoll"),
  (74, "signalfd4"), (75, "vmsplice"), (76, "splice"), (77, "tee"), (78, "readlinkat"), (79, "newfstatat"), (80, "fstat"),
  (81, "sync"), (82, "fsync"), (83, "fdatasync"), (84, "sync_file_range"), (85, "timerfd_create"), (86, "timerfd_settime"),
  (87, "timerfd_gettime"), (88, "utimensat"), (89, "acct"), (90, "capget"), (91, "capset"), (92, "personality"), (93, "exit"),
  (94, "exit_group"), (95, "waitid"), (96, "set_tid_address"), (97, "unshare"), (98, "futex"), (99, "set_robust_list"),
  (100, "get_robust_list"), (101, "nanosleep"), (102, "getitimer"), (103, "setitimer"), (104, "kexec_load"), (105, "init_module"),
  (106, "delete_module"), (107, "timer_create"), (108, "timer_gettime"), (109, "timer_getoverrun"), (110, "timer_settime"),
  (111, "timer_delete"), (112, "clock_settime"), (113, "clock_gettime"), (114, "clock_getres"), (115, "clock_nanosleep"),
  (116, "syslog"), (117, "ptrace"), (118, "sched_setparam"), (119, "sched_setscheduler"), (120, "sched_getscheduler"),
  (121, "sched_getparam"), (122, "sched_setaffinity"), (123, "sched_getaffinity"), (124, "sched_yield"),
  (125, "sched_get_priority_max"), (126, "sched_get_priority_min"), (127, "sched_rr_get_interval"), (128, "restart_syscall"),
  (129, "kill"), (130, "tkill"), (131, "tgkill"), (132, "sigaltstack"), (133, "rt_sigsuspend"), (134, "rt_sigaction"),
  (135, "rt_sigprocmask"), (136, "rt_sigpending"), (137, "rt_sigtimedwait"), (138, "rt_sigqueueinfo"), (139, "rt_sigreturn"),
  (140, "setpriority"), (141, "getpriority"), (142, "reboot"), (143, "setregid"), (144, "setgid"), (145, "setreuid"),
  (146, "setuid"), (147, "setresuid"), (148, "getresuid"), (149, "setresgid"), (150, "getresgid"), (151, "setfsuid"),
  (152, "setfsgid"), (153, "times"), (154, "setpgid"), (155, "getpgid"), (156, "getsid"), (157, "setsid"), (158, "getgroups"),
  (159, "setgroups"), (160, "uname"), (161, "sethostname"), (162, "setdomainname"), (163, "getrlimit"), (164, "setrlimit"),
  (165, "getrusage"), (166, "umask"), (167, "prctl"), (168, "getcpu"), (169, "gettimeofday"), (170, "settimeofday"),
  (171, "adjtimex"), (172, "getpid"), (173, "getppid"), (174, "getuid"), (175, "geteuid"), (176, "getgid"), (177, "getegid"),
  (178, "gettid"), (179, "sysinfo"), (180, "mq_open"), (181, "mq_unlink"), (182, "mq_timedsend"), (183, "mq_timedreceive"),
  (184, "mq_notify"), (185, "mq_getsetattr"), (186, "msgget"), (187, "msgctl"), (188, "msgrcv"), (189, "msgsnd"), (190, "semget"),
  (191, "semctl"), (192, "semtimedop"), (193, "semop"), (194, "shmget"), (195, "shmctl"), (196, "shmat"), (197, "shmdt"),
  (198, "socket"), (199, "socketpair"), (200, "bind"), (201, "listen"), (202, "accept"), (203, "connect"), (204, "getsockname"),
  (205, "getpeername"), (206, "sendto"), (207, "recvfrom"), (208, "setsockopt"), (209, "getsockopt"), (210, "shutdown"),
  (211, "sendmsg"), (212, "recvmsg"), (213, "readahead"), (214, "brk"), (215, "munmap"), (216, "mremap"), (217, "add_key"),
  (218, "request_key"), (219, "keyctl"), (220, "clone"), (221, "execve"), (222, "mmap"), (223, "fadvise64"), (224, "swapon"),
  (225, "swapoff"), (226, "mprotect"), (227, "msync"), (228, "mlock"), (229, "munlock"), (230, "mlockall"), (231, "munlockall"),
  (232, "mincore"), (233, "madvise"), (234, "remap_file_pages"), (235, "mbind"), (236, "get_mempolicy"), (237, "set_mempolicy"),
  (238, "migrate_pages"), (239, "move_pages"), (240, "rt_tgsigqueueinfo"), (241, "perf_event_open"), (242, "accept4"),
  (243, "recvmmsg"), (259, "riscv_flush_icache"), (260, "wait4"), (261, "prlimit64"), (262, "fanotify_init"),
  (263, "fanotify_mark"), (264, "name_to_handle_at"), (265, "open_by_handle_at"), (266, "clock_adjtime"), (267, "syncfs"),
  (268, "setns"), (269, "sendmmsg"), (270, "process_vm_readv"), (271, "process_vm_writev"), (272, "kcmp"), (273, "finit_module"),
  (274, "sched_setattr"), (275, "sched_getattr"), (276, "renameat2"), (277, "seccomp"), (278, "getrandom"), (279, "memfd_create"),
  (280, "bpf"), (281, "execveat"), (282, "userfaultfd"), (283, "membarrier"), (284, "mlock2"), (285, "copy_file_range"),
  (286, "preadv2"), (287, "pwritev2"), (288, "pkey_mprotect"), (289, "pkey_alloc"), (290, "pkey_free"), (291, "statx"),
  (292, "io_pgetevents"), (293, "rseq"), (294, "kexec_file_load"), (424, "pidfd_send_signal"), (425, "io_uring_setup"),
  (426, "io_uring_enter"), (427, "io_uring_register"), (428, "open_tree"), (429, "move_mount"), (430, "fsopen"), (431, "fsconfig"),
  (432, "fsmount"), (433, "fspick"), (434, "pidfd_open"), (435, "clone3"), (436, "close_range"), (437, "openat2"),
  (438, "pidfd_getfd"), (439, "faccessat2"), (440, "process_madvise"), (441, "epoll_pwait2"), (442, "mount_setattr"),
  (443, "quotactl_fd"), (444, "landlock_create_ruleset"), (445, "landlock_add_rule"), (446, "landlock_restrict_self"),
  (447, "memfd_secret"), (448, "process_mrelease"), (449, "futex_waitv"), (450, "set_mempolicy_home_node")]

/-- `SOCKET_SYSCALL_NAMES` of `linux/riscv64.py`. -/
def riscv64Socket : List String := ["socket", "socketpair", "connect", "sendto", "recvfrom", "sendmsg", "recvmsg", "bind", "listen", "accept", "getsockname", "getpeername", "getsockopt", "setsockopt", "shutdown"]

/-- `SYSCALL_PROTOTYPES` of `prototypes.py`: name, type of the result, (type, name) of the arguments. -/
def basePrototypes : List (String × String × List (String × String)) := [
  ("accept", "long", [("int", "sockfd"), ("struct sockaddr *", "addr"), ("int *", "addrlen")]),
  ("accept4", "long", [("int", "sockfd"), ("struct sockaddr *", "addr"), ("int *", "addrlen"), ("int", "flags")]),
  ("access", "long", [("const char *", "filename"), ("int", "mode")]),
  ("acct", "long", [("const char *", "name")]),
  ("add_key", "long", [("const char *", "_type"), ("const char *", "_description"), ("const void *", "_payload"), ("size_t", "plen"), ("key_serial_t", "destringid")]),
  ("adjtimex", "long", [("struct timex *", "txc_p")]),
  ("alarm", "long", [("unsigned int", "seconds")]),
  ("bdflush", "long", [("int", "func"), ("long", "data")]),
  ("bind", "long", [("int", "sockfd"), ("struct sockaddr *", "addr"), ("int", "addrlen")]),
  ("bpf", "long", [("int", "cmd"), ("union bpf_attr *", "attr"), ("unsigned int", "size")]),
  ("brk", "long", [("unsigned long", "brk")]),
  ("capget", "long", [("cap_user_header_t", "header"), ("cap_user_data_t", "dataptr")]),
  ("capset", "long", [("cap_user_header_t", "header"), ("const cap_user_data_t", "data")]),
  ("chdir", "long", [("const char *", "filename")]),
  ("chmod", "long", [("const char *", "filename"), ("umode_t", "mode")]),
  ("chown", "long", [("const char *", "filename"), ("uid_t", "user"), ("gid_t", "group")]),
  ("chown16", "long", [("const char *", "filename"), ("old_uid_t", "user"), ("old_gid_t", "group")]),
  ("chroot", "long", [("const char *", "filename")]),
  ("clock_adjtime", "long", [("clockid_t", "which_clock"), ("struct timex *", "tx")]),
  ("clock_getres", "long", [("clockid_t", "which_clock"), ("struct timespec *", "tp")]),
  ("clock_gettime", "long", [("clockid_t", "which_clock"), ("struct timespec *", "tp")]),
  ("clock_nanosleep", "long", [("clockid_t", "which_clock"), ("int", "flags"), ("const struct timespec *", "rqtp"), ("struct timespec *", "rmtp")]),
  ("clock_settime", "long", [("clockid_t", "which_clock"), ("const struct timespec *", "tp")]),
  ("clone", "long", [("unsigned long", "flags"), ("unsigned long", "child_stack"), ("int *", "ptid"), ("int *", "ctid"), ("unsigned long", "regs")]),
  ("close", "long", [("unsigned int", "fd")]),
  ("connect", "long", [("int", "sockfd"), ("struct sockaddr *", "addr"), ("int", "addrlen")]),
  ("copy_file_range", "long", [("int", "fd_in"), ("loff_t *", "off_in"), ("int", "fd_out"), ("loff_t *", "off_out"), ("size_t", "len"), ("unsigned int", "flags")]),
  ("creat", "long", [("const char *", "pathname"), ("umode_t", "mode")]),
  ("delete_module", "long", [("const char *", "name_user"), ("unsigned int", "flags")]),
  ("dup", "long", [("unsigned int", "fildes")]),
  ("dup2", "long", [("unsigned int", "oldfd"), ("unsigned int", "newfd")]),
  ("dup3", "long", [("unsigned int", "oldfd"), ("unsigned int", "newfd"), ("int", "flags")]),
  ("epoll_create", "long", [("int", "size")]),
  ("epoll_create1", "long", [("int", "flags")]),
  ("epoll_ctl", "long", [("int", "epfd"), ("int", "op"), ("int", "fd"), ("struct epoll_event *", "event")]),
  ("epoll_pwait", "long", [("int", "epfd"), ("struct epoll_event *", "events"), ("int", "maxevents"), ("int", "timeout"), ("const sigset_t *", "sigmask"), ("size_t", "sigsetsize")]),
  ("epoll_wait", "long", [("int", "epfd"), ("struct epoll_event *", "events"), ("int", "maxevents"), ("int", "timeout")]),
  ("eventfd", "long", [("unsigned int", "count")]),
  ("eventfd2", "long", [("unsigned int", "count"), ("int", "flags")]),
  ("execve", "long", [("const char *", "filename"), ("const char *const *", "argv"), ("const char *const *", "envp")]),
  ("execveat", "long", [("int", "dfd"), ("const char *", "filename"), ("const char *const *", "argv"), ("const char *const *", "envp"), ("int", "flags")]),
  ("exit", "long", [("int", "error_code")]),
  ("exit_group", "long", [("int", "error_code")]),
  ("faccessat", "long", [("int", "dfd"), ("const char *", "filename"), ("int", "mode")]),
  ("fadvise64", "long", [("int", "fd"), ("loff_t", "offset"), ("size_t", "len"), ("int", "advice")]),
  ("fadvise64_64", "long", [("int", "fd"), ("loff_t", "offset"), ("loff_t", "len"), ("int", "advice")]),
  ("fallocate", "long", [("int", "fd"), ("int", "mode"), ("loff_t", "offset"), ("loff_t", "len")]),
  ("fanotify_init", "long", [("unsigned int", "flags"), ("unsigned int", "event_f_flags")]),
  ("fanotify_mark", "long", [("int", "fanotify_fd"), ("unsigned int", "flags"), ("u64", "mask"), ("int", "fd"), ("const char *", "pathname")]),
  ("fchdir", "long", [("unsigned int", "fd")]),
  ("fchmod", "long", [("unsigned int", "fd"), ("umode_t", "mode")]),
  ("fchmodat", "long", [("int", "dfd"), ("const char *", "filename"), ("umode_t", "mode")]),
  ("fchown", "long", [("unsigned int", "fd"), ("uid_t", "user"), ("gid_t", "group")]),
  ("fchown16", "long", [("unsigned int", "fd"), ("old_uid_t", "user"), ("old_gid_t", "group")]),
  ("fchownat", "long", [("int", "dfd"), ("const char *", "filename"), ("uid_t", "user"), ("gid_t", "group"), ("int", "flag")]),
  ("fcntl", "long", [("unsigned int", "fd"), ("unsigned int", "cmd"), ("unsigned long", "arg")]),
  ("fcntl64", "long", [("unsigned int", "fd"), ("unsigned int", "cmd"), ("unsigned long", "arg")]),
  ("fdatasync", "long", [("unsigned int", "fd")]),
  ("fgetxattr", "long", [("int", "fd"), ("const char *", "name"), ("void *", "value"), ("size_t", "size")]),
  ("finit_module", "long", [("int", "fd"), ("const char *", "uargs"), ("int", "flags")]),
  ("flistxattr", "long", [("int", "fd"), ("char *", "list"), ("size_t", "size")]),
  ("flock", "long", [("unsigned int", "fd"), ("unsigned int", "cmd")]),
  ("fork", "long", []),
  ("fremovexattr", "long", [("int", "fd"), ("const char *", "name")]),
  ("fsetxattr", "long", [("int", "fd"), ("const char *", "name"), ("const void *", "value"), ("size_t", "size"), ("int", "flags")]),
  ("fstat", "long", [("unsigned int", "fd"), ("struct __old_kernel_stat *", "statbuf")]),
  ("fstat64", "long", [("unsigned long", "fd"), ("struct stat64 *", "statbuf")]),
  ("fstatat64", "long", [("int", "dfd"), ("const char *", "filename"), ("struct stat64 *", "statbuf"), ("int", "flag")]),
  ("fstatfs", "long", [("unsigned int", "fd"), ("struct statfs *", "buf")]),
  ("fstatfs64", "long", [("unsigned int", "fd"), ("size_t", "sz"), ("struct statfs64 *", "buf")]),
  ("fsync", "long", [("unsigned int", "fd")]),
  ("ftruncate", "long", [("unsigned int", "fd"), ("unsigned long", "length")]),
  ("ftruncate64", "long", [("unsigned int", "fd"), ("loff_t", "length")]),
  ("futex", "long", [("u32 *", "uaddr"), ("int", "op"), ("u32", "val"), ("struct timespec *", "utime"), ("u32 *", "uaddr2"), ("u32", "val3")]),
  ("futimesat", "long", [("int", "dfd"), ("const char *", "filename"), ("struct timeval *", "utimes")]),
  ("get_mempolicy", "long", [("int *", "policy"), ("unsigned long *", "nmask"), ("unsigned long", "maxnode"), ("unsigned long", "addr"), ("unsigned long", "flags")]),
  ("get_robust_list", "long", [("int", "pid"), ("struct robust_list_head * *", "head_ptr"), ("size_t *", "len_ptr")]),
  ("getcpu", "long", [("unsigned *", "cpu"), ("unsigned *", "node"), ("struct getcpu_cache *", "cache")]),
  ("getcwd", "long", [("char *", "pathname"), ("unsigned long", "size")]),
  ("getdents", "long", [("unsigned int", "fd"), ("struct linux_dirent *", "dirent"), ("unsigned int", "count")]),
  ("getdents64", "long", [("unsigned int", "fd"), ("struct linux_dirent64 *", "dirent"), ("unsigned int", "count")]),
  ("getegid", "long", []),
  ("getegid16", "long", []),
  ("geteuid", "long", []),
  ("geteuid16", "long", []),
  ("getgid", "long", []),
  ("getgid16", "long", []),
  ("getgroups", "long", [("int", "gidsetsize"), ("gid_t *", "grouplist")]),
  ("getgroups16", "long", [("int", "gidsetsize"), ("old_gid_t *", "grouplist")]),
  ("gethostname", "long", [("char *", "name"), ("int", "len")]),
  ("getitimer", "long", [("int", "which"), ("struct itimerval *", "value")]),
  ("getpeername", "long", [("int", "sockfd"), ("struct sockaddr *", "addr"), ("int *", "addrlen")]),
  ("getpgid", "long", [("pid_t", "pid")]),
  ("getpgrp", "long", []),
  ("getpid", "long", []),
  ("getppid", "long", []),
  ("getpriority", "long", [("int", "which"), ("int", "who")]),
  ("getrandom", "long", [("char *", "buf"), ("size_t", "count"), ("unsigned int", "flags")]),
  ("getresgid", "long", [("gid_t *", "rgid"), ("gid_t *", "egid"), ("gid_t *", "sgid")]),
  ("getresgid16", "long", [("old_gid_t *", "rgid"), ("old_gid_t *", "egid"), ("old_gid_t *", "sgid")]),
  ("getresuid", "long", [("uid_t *", "ruid"), ("uid_t *", "euid"), ("uid_t *", "suid")]),
  ("getresuid16", "long", [("old_uid_t *", "ruid"), ("old_uid_t *", "euid"), ("old_uid_t *", "suid")]),
  ("getrlimit", "long", [("unsigned int", "resource"), ("struct rlimit *", "rlim")]),
  ("getrusage", "long", [("int", "who"), ("struct rusage *", "ru")]),
  ("getsid", "long", [("pid_t", "pid")]),
  ("getsockname", "long", [("int", "sockfd"), ("struct sockaddr *", "addr"), ("int *", "addrlen")]),
  ("getsockopt", "long", [("int", "fd"), ("int", "level"), ("int", "optname"), ("char *", "optval"), ("int *", "optlen")]),
  ("gettid", "long", []),
  ("gettimeofday", "long", [("struct timeval *", "tv"), ("struct timezone *", "tz")]),
  ("getuid", "long", []),
  ("getuid16", "long", []),
  ("getxattr", "long", [("const char *", "path"), ("const char *", "name"), ("void *", "value"), ("size_t", "size")]),
  ("init_module", "long", [("void *", "umod"), ("unsigned long", "len"), ("const char *", "uargs")]),
  ("inotify_add_watch", "long", [("int", "fd"), ("const char *", "path"), ("u32", "mask")]),
  ("inotify_init", "long", []),
  ("inotify_init1", "long", [("int", "flags")]),
  ("inotify_rm_watch", "long", [("int", "fd"), ("__s32", "wd")]),
  ("io_cancel", "long", [("aio_context_t", "ctx_id"), ("struct iocb *", "iocb"), ("struct io_event *", "result")]),
  ("io_destroy", "long", [("aio_context_t", "ctx")]),
  ("io_getevents", "long", [("aio_context_t", "ctx_id"), ("long", "min_nr"), ("long", "nr"), ("struct io_event *", "events"), ("struct timespec *", "timeout")]),
  ("io_setup", "long", [("unsigned", "nr_reqs"), ("aio_context_t *", "ctx")]),
  ("io_submit", "long", [("aio_context_t", "ctx_id"), ("long", "nr"), ("struct iocb * *", "iocbpp")]),
  ("ioctl", "long", [("unsigned int", "fd"), ("unsigned int", "cmd"), ("unsigned long", "arg")]),
  ("ioperm", "long", [("unsigned long", "from"), ("unsigned long", "num"), ("int", "on")]),
  ("ioprio_get", "long", [("int", "which"), ("int", "who")]),
  ("ioprio_set", "long", [("int", "which"), ("int", "who"), ("int", "ioprio")]),
  ("ipc", "long", [("unsigned int", "call"), ("int", "first"), ("unsigned long", "second"), ("unsigned long", "third"), ("void *", "ptr"), ("long", "fifth")]),
  ("kcmp", "long", [("pid_t", "pid1"), ("pid_t", "pid2"), ("int", "type"), ("unsigned long", "idx1"), ("unsigned long", "idx2")]),
  ("kexec_file_load", "long", [("int", "kernel_fd"), ("int", "initrd_fd"), ("unsigned long", "cmdline_len"), ("const char *", "cmdline_ptr"), ("unsigned long", "flags")]),
  ("kexec_load", "long", [("unsigned long", "entry"), ("unsigned long", "nr_segments"), ("struct kexec_segment *", "segments"), ("unsigned long", "flags")]),
  ("keyctl", "long", [("int", "cmd"), ("unsigned long", "arg2"), ("unsigned long", "arg3"), ("unsigned long", "arg4"), ("unsigned long", "arg5")]),
  ("kill", "long", [("int", "pid"), ("int", "sig")]),
  ("lchown", "long", [("const char *", "filename"), ("uid_t", "user"), ("gid_t", "group")]),
  ("lchown16", "long", [("const char *", "filename"), ("old_uid_t", "user"), ("old_gid_t", "group")]),
  ("lgetxattr", "long", [("const char *", "path"), ("const char *", "name"), ("void *", "value"), ("size_t", "size")]),
  ("link", "long", [("const char *", "oldname"), ("const char *", "newname")]),
  ("linkat", "long", [("int", "olddfd"), ("const char *", "oldname"), ("int", "newdfd"), ("const char *", "newname"), ("int", "flags")]),
  ("listen", "long", [("int", "sockfd"), ("int", "backlog")]),
  ("listxattr", "long", [("const char *", "path"), ("char *", "list"), ("size_t", "size")]),
  ("llistxattr", "long", [("const char *", "path"), ("char *", "list"), ("size_t", "size")]),
  ("llseek", "long", [("unsigned int", "fd"), ("unsigned long", "offset_high"), ("unsigned long", "offset_low"), ("loff_t *", "result"), ("unsigned int", "whence")]),
  ("lookup_dcookie", "long", [("u64", "cookie64"), ("char *", "buf"), ("size_t", "len")]),
  ("lremovexattr", "long", [("const char *", "path"), ("const char *", "name")]),
  ("lseek", "long", [("unsigned int", "fd"), ("off_t", "offset"), ("unsigned int", "whence")]),
  ("lsetxattr", "long", [("const char *", "path"), ("const char *", "name"), ("const void *", "value"), ("size_t", "size"), ("int", "flags")]),
  ("lstat", "long", [("const char *", "filename"), ("struct __old_kernel_stat *", "statbuf")]),
  ("lstat64", "long", [("const char *", "filename"), ("struct stat64 *", "statbuf")]),
  ("madvise", "long", [("unsigned long", "start"), ("size_t", "len"), ("int", "behavior")]),
  ("mbind", "long", [("unsigned long", "start"), ("unsigned long", "len"), ("unsigned long", "mode"), ("const unsigned long *", "nmask"), ("unsigned long", "maxnode"), ("unsigned", "flags")]),
  ("membarrier", "long", [("int", "cmd"), ("int", "flags")]),
  ("memfd_create", "long", [("const char *", "uname_ptr"), ("unsigned int", "flags")]),
  ("migrate_pages", "long", [("pid_t", "pid"), ("unsigned long", "maxnode"), ("const unsigned long *", "from"), ("const unsigned long *", "to")]),
  ("mincore", "long", [("unsigned long", "start"), ("size_t", "len"), ("unsigned char *", "vec")]),
  ("mkdir", "long", [("const char *", "pathname"), ("umode_t", "mode")]),
  ("mkdirat", "long", [("int", "dfd"), ("const char *", "pathname"), ("umode_t", "mode")]),
  ("mknod", "long", [("const char *", "filename"), ("umode_t", "mode"), ("unsigned", "dev")]),
  ("mknodat", "long", [("int", "dfd"), ("const char *", "filename"), ("umode_t", "mode"), ("unsigned", "dev")]),
  ("mlock", "long", [("unsigned long", "start"), ("size_t", "len")]),
  ("mlock2", "long", [("unsigned long", "start"), ("size_t", "len"), ("int", "flags")]),
  ("mlockall", "long", [("int", "flags")]),
  ("mmap_pgoff", "long", [("unsigned long", "addr"), ("unsigned long", "len"), ("unsigned long", "prot"), ("unsigned long", "flags"), ("unsigned long", "fd"), ("unsigned long", "pgoff")]),
  ("mount", "long", [("char *", "dev_name"), ("char *", "dir_name"), ("char *", "type"), ("unsigned long", "flags"), ("void *", "data")]),
  ("move_pages", "long", [("pid_t", "pid"), ("unsigned long", "nr_pages"), ("const void * *", "pages"), ("const int *", "nodes"), ("int *", "status"), ("int", "flags")]),
  ("mprotect", "long", [("unsigned long", "start"), ("size_t", "len"), ("unsigned long", "prot")]),
  ("mq_getsetattr", "long", [("mqd_t", "mqdes"), ("const struct mq_attr *", "mqstat"), ("struct mq_attr *", "omqstat")]),
  ("mq_notify", "long", [("mqd_t", "mqdes"), ("const struct sigevent *", "notification")]),
  ("mq_open", "long", [("const char *", "name"), ("int", "oflag"), ("umode_t", "mode"), ("struct mq_attr *", "attr")]),
  ("mq_timedreceive", "long", [("mqd_t", "mqdes"), ("char *", "msg_ptr"), ("size_t", "msg_len"), ("unsigned int *", "msg_prio"), ("const struct timespec *", "abs_timeout")]),
  ("mq_timedsend", "long", [("mqd_t", "mqdes"), ("const char *", "msg_ptr"), ("size_t", "msg_len"), ("unsigned int", "msg_prio"), ("const struct timespec *", "abs_timeout")]),
  ("mq_unlink", "long", [("const char *", "name")]),
  ("mremap", "long", [("unsigned long", "addr"), ("unsigned long", "old_len"), ("unsigned long", "new_len"), ("unsigned long", "flags"), ("unsigned long", "new_addr")]),
  ("msgctl", "long", [("int", "msqid"), ("int", "cmd"), ("struct msqid_ds *", "buf")]),
  ("msgget", "long", [("key_t", "key"), ("int", "msgflg")]),
  ("msgrcv", "long", [("int", "msqid"), ("struct msgbuf *", "msgp"), ("size_t", "msgsz"), ("long", "msgtyp"), ("int", "msgflg")]),
  ("msgsnd", "long", [("int", "msqid"), ("struct msgbuf *", "msgp"), ("size_t", "msgsz"), ("int", "msgflg")]),
  ("msync", "long", [("unsigned long", "start"), ("size_t", "len"), ("int", "flags")]),
  ("munlock", "long", [("unsigned long", "start"), ("size_t", "len")]),
  ("munlockall", "long", []),
  ("munmap", "long", [("unsigned long", "addr"), ("size_t", "len")]),
  ("name_to_handle_at", "long", [("int", "dirfd"), ("const char *", "name"), ("struct file_handle *", "handle"), ("int *", "mnt_id"), ("int", "flag")]),
  ("nanosleep", "long", [("struct timespec *", "rqtp"), ("struct timespec *", "rmtp")]),
  ("newfstat", "long", [("unsigned int", "fd"), ("struct stat *", "statbuf")]),
  ("newfstatat", "long", [("int", "dfd"), ("const char *", "filename"), ("struct stat *", "statbuf"), ("int", "flag")]),
  ("newlstat", "long", [("const char *", "filename"), ("struct stat *", "statbuf")]),
  ("newstat", "long", [("const char *", "filename"), ("struct stat *", "statbuf")]),
  ("newuname", "long", [("struct new_utsname *", "name")]),
  ("ni_syscall", "long", []),
  ("nice", "long", [("int", "increment")]),
  ("old_getrlimit", "long", [("unsigned int", "resource"), ("struct rlimit *", "rlim")]),
  ("old_mmap", "long", [("struct mmap_arg_struct *", "arg")]),
  ("old_readdir", "long", [("unsigned int", "fd"), ("struct old_linux_dirent *", "dirp"), ("unsigned int", "count")]),
  ("old_select", "long", [("struct sel_arg_struct *", "arg")]),
  ("oldumount", "long", [("char *", "name")]),
  ("olduname", "long", [("struct oldold_utsname *", "buf")]),
  ("open", "long", [("const char *", "filename"), ("int", "flags"), ("umode_t", "mode")]),
  ("open_by_handle_at", "long", [("int", "mount_fd"), ("struct file_handle *", "handle"), ("int", "flags")]),
  ("openat", "long", [("int", "dirfd"), ("const char *", "filename"), ("int", "flags"), ("umode_t", "mode")]),
  ("pause", "long", []),
  ("pciconfig_iobase", "long", [("long", "which"), ("unsigned long", "bus"), ("unsigned long", "devfn")]),
  ("pciconfig_read", "long", [("unsigned long", "bus"), ("unsigned long", "dfn"), ("unsigned long", "off"), ("unsigned long", "len"), ("void *", "buf")]),
  ("pciconfig_write", "long", [("unsigned long", "bus"), ("unsigned long", "dfn"), ("unsigned long", "off"), ("unsigned long", "len"), ("void *", "buf")]),
  ("perf_event_open", "long", [("struct perf_event_attr *", "attr_uptr"), ("pid_t", "pid"), ("int", "cpu"), ("int", "group_fd"), ("unsigned long", "flags")]),
  ("personality", "long", [("unsigned int", "personality")]),
  ("pipe", "long", [("int[2]", "fildes")]),
  ("pipe2", "long", [("int[2]", "fildes"), ("int", "flags")]),
  ("pivot_root", "long", [("const char *", "new_root"), ("const char *", "put_old")]),
  ("poll", "long", [("struct pollfd *", "ufds"), ("unsigned int", "nfds"), ("int", "timeout")]),
  ("ppoll", "long", [("struct pollfd *", "fds"), ("unsigned int", "nfds"), ("struct timespec *", "tmo_p"), ("const sigset_t *", "sigmask"), ("size_t", "")]),
  ("prctl", "long", [("int", "option"), ("unsigned long", "arg2"), ("unsigned long", "arg3"), ("unsigned long", "arg4"), ("unsigned long", "arg5")]),
  ("pread64", "long", [("unsigned int", "fd"), ("char *", "buf"), ("size_t", "count"), ("loff_t", "pos")]),
  ("preadv", "long", [("unsigned long", "fd"), ("const struct iovec *", "vec"), ("unsigned long", "vlen"), ("unsigned long", "pos_l"), ("unsigned long", "pos_h")]),
  ("prlimit64", "long", [("pid_t", "pid"), ("unsigned int", "resource"), ("const struct rlimit64 *", "new_rlim"), ("struct rlimit64 *", "old_rlim")]),
  ("process_vm_readv", "long", [("pid_t", "pid"), ("const struct iovec *", "lvec"), ("unsigned long", "liovcnt"), ("const struct iovec *", "rvec"), ("unsigned long", "riovcnt"), ("unsigned long", "flags")]),
  ("process_vm_writev", "long", [("pid_t", "pid"), ("const struct iovec *", "lvec"), ("unsigned long", "liovcnt"), ("const struct iovec *", "rvec"), ("unsigned long", "riovcnt"), ("unsigned long", "flags")]),
  ("pselect6", "long", [("int", "nfds"), ("fd_set *", "readfds"), ("fd_set *", "writefds"), ("fd_set *", "exceptfds"), ("struct timespec *", "timeout"), ("void *", "sigmask")]),
  ("ptrace", "long", [("long", "request"), ("long", "pid"), ("unsigned long", "addr"), ("unsigned long", "data")]),
  ("pwrite64", "long", [("unsigned int", "fd"), ("const char *", "buf"), ("size_t", "count"), ("loff_t", "pos")]),
  ("pwritev", "long", [("unsigned long", "fd"), ("const struct iovec *", "vec"), ("unsigned long", "vlen"), ("unsigned long", "pos_l"), ("unsigned long", "pos_h")]),
  ("quotactl", "long", [("unsigned int", "cmd"), ("const char *", "special"), ("qid_t", "id"), ("void *", "addr")]),
  ("read", "long", [("unsigned int", "fd"), ("char *", "buf"), ("size_t", "count")]),
  ("readahead", "long", [("int", "fd"), ("loff_t", "offset"), ("size_t", "count")]),
  ("readlink", "long", [("const char *", "path"), ("char *", "buf"), ("int", "bufsiz")]),
  ("readlinkat", "long", [("int", "dfd"), ("const char *", "path"), ("char *", "buf"), ("int", "bufsiz")]),
  ("readv", "long", [("unsigned long", "fd"), ("const struct iovec *", "vec"), ("unsigned long", "vlen")]),
  ("reboot", "long", [("int", "magic1"), ("int", "magic2"), ("unsigned int", "cmd"), ("void *", "arg")]),
  ("recv", "long", [("int", "sockfd"), ("void *", "buf"), ("size_t", "len"), ("unsigned", "flags")]),
  ("recvfrom", "long", [("int", "sockfd"), ("void *", "buf"), ("size_t", "len"), ("unsigned", "flags"), ("struct sockaddr *", "src_addr"), ("int *", "addrlen")]),
  ("recvmmsg", "long", [("int", "fd"), ("struct mmsghdr *", "msg"), ("unsigned int", "vlen"), ("unsigned", "flags"), ("struct timespec *", "timeout")]),
  ("recvmsg", "long", [("int", "fd"), ("struct user_msghdr *", "msg"), ("unsigned", "flags")]),
  ("remap_file_pages", "long", [("unsigned long", "start"), ("unsigned long", "size"), ("unsigned long", "prot"), ("unsigned long", "pgoff"), ("unsigned long", "flags")]),
  ("removexattr", "long", [("const char *", "path"), ("const char *", "name")]),
  ("rename", "long", [("const char *", "oldname"), ("const char *", "newname")]),
  ("renameat", "long", [("int", "olddfd"), ("const char *", "oldname"), ("int", "newdfd"), ("const char *", "newname")]),
  ("renameat2", "long", [("int", "olddfd"), ("const char *", "oldname"), ("int", "newdfd"), ("const char *", "newname"), ("unsigned int", "flags")]),
  ("request_key", "long", [("const char *", "_type"), ("const char *", "_description"), ("const char *", "_callout_info"), ("key_serial_t", "destringid")]),
  ("restart_syscall", "long", []),
  ("rmdir", "long", [("const char *", "pathname")]),
  ("rt_sigaction", "long", [("int", "signum"), ("const struct sigaction *", "act"), ("struct sigaction *", "oldact"), ("size_t", "")]),
  ("rt_sigpending", "long", [("sigset_t *", "set"), ("size_t", "sigsetsize")]),
  ("rt_sigprocmask", "long", [("int", "how"), ("sigset_t *", "set"), ("sigset_t *", "oset"), ("size_t", "sigsetsize")]),
  ("rt_sigqueueinfo", "long", [("int", "pid"), ("int", "sig"), ("siginfo_t *", "uinfo")]),
  ("rt_sigsuspend", "long", [("sigset_t *", "unewset"), ("size_t", "sigsetsize")]),
  ("rt_sigtimedwait", "long", [("const sigset_t *", "uthese"), ("siginfo_t *", "uinfo"), ("const struct timespec *", "uts"), ("size_t", "sigsetsize")]),
  ("rt_tgsigqueueinfo", "long", [("pid_t", "tgid"), ("pid_t", "pid"), ("int", "sig"), ("siginfo_t *", "uinfo")]),
  ("sched_get_priority_max", "long", [("int", "policy")]),
  ("sched_get_priority_min", "long", [("int", "policy")]),
  ("sched_getaffinity", "long", [("pid_t", "pid"), ("unsigned int", "len"), ("unsigned long *", "user_mask_ptr")]),
  ("sched_getattr", "long", [("pid_t", "pid"), ("struct sched_attr *", "attr"), ("unsigned int", "size"), ("unsigned int", "flags")]),
  ("sched_getparam", "long", [("pid_t", "pid"), ("struct sched_param *", "param")]),
  ("sched_getscheduler", "long", [("pid_t", "pid")]),
  ("sched_rr_get_interval", "long", [("pid_t", "pid"), ("struct timespec *", "interval")]),
  ("sched_setaffinity", "long", [("pid_t", "pid"), ("unsigned int", "len"), ("unsigned long *", "user_mask_ptr")]),
  ("sched_setattr", "long", [("pid_t", "pid"), ("struct sched_attr *", "attr"), ("unsigned int", "flags")]),
  ("sched_setparam", "long", [("pid_t", "pid"), ("struct sched_param *", "param")]),
  ("sched_setscheduler", "long", [("pid_t", "pid"), ("int", "policy"), ("struct sched_param *", "param")]),
  ("sched_yield", "long", []),
  ("seccomp", "long", [("unsigned int", "op"), ("unsigned int", "flags"), ("const char *", "uargs")]),
  ("select", "long", [("int", "nfds"), ("fd_set *", "readfds"), ("fd_set *", "writefds"), ("fd_set *", "errorfds"), ("struct timeval *", "timeout")]),
  ("semctl", "long", [("int", "semid"), ("int", "semnum"), ("int", "cmd"), ("unsigned long", "arg")]),
  ("semget", "long", [("key_t", "key"), ("int", "nsems"), ("int", "semflg")]),
  ("semop", "long", [("int", "semid"), ("struct sembuf *", "sops"), ("unsigned", "nsops")]),
  ("semtimedop", "long", [("int", "semid"), ("struct sembuf *", "sops"), ("unsigned", "nsops"), ("const struct timespec *", "timeout")]),
  ("send", "long", [("int", "sockfd"), ("void *", "buf"), ("size_t", "len"), ("unsigned", "flags")]),
  ("sendfile", "long", [("int", "out_fd"), ("int", "in_fd"), ("off_t *", "offset"), ("size_t", "count")]),
  ("sendfile64", "long", [("int", "out_fd"), ("int", "in_fd"), ("loff_t *", "offset"), ("size_t", "count")]),
  ("sendmmsg", "long", [("int", "fd"), ("struct mmsghdr *", "msg"), ("unsigned int", "vlen"), ("unsigned", "flags")]),
  ("sendmsg", "long", [("int", "fd"), ("struct user_msghdr *", "msg"), ("unsigned", "flags")]),
  ("sendto", "long", [("int", "sockfd"), ("void *", "buf"), ("size_t", "len"), ("unsigned", "flags"), ("struct sockaddr *", "dest_addr"), ("int", "addrlen")]),
  ("set_mempolicy", "long", [("int", "mode"), ("const unsigned long *", "nmask"), ("unsigned long", "maxnode")]),
  ("set_robust_list", "long", [("struct robust_list_head *", "head"), ("size_t", "len")]),
  ("set_tid_address", "long", [("int *", "tidptr")]),
  ("setdomainname", "long", [("char *", "name"), ("int", "len")]),
  ("setfsgid", "long", [("gid_t", "gid")]),
  ("setfsgid16", "long", [("old_gid_t", "gid")]),
  ("setfsuid", "long", [("uid_t", "uid")]),
  ("setfsuid16", "long", [("old_uid_t", "uid")]),
  ("setgid", "long", [("gid_t", "gid")]),
  ("setgid16", "long", [("old_gid_t", "gid")]),
  ("setgroups", "long", [("int", "gidsetsize"), ("gid_t *", "grouplist")]),
  ("setgroups16", "long", [("int", "gidsetsize"), ("old_gid_t *", "grouplist")]),
  ("sethostname", "long", [("char *", "name"), ("int", "len")]),
  ("setitimer", "long", [("int", "which"), ("struct itimerval *", "value"), ("struct itimerval *", "ovalue")]),
  ("setns", "long", [("int", "fd"), ("int", "nstype")]),
  ("setpgid", "long", [("pid_t", "pid"), ("pid_t", "pgid")]),
  ("setpriority", "long", [("int", "which"), ("int", "who"), ("int", "niceval")]),
  ("setregid", "long", [("gid_t", "rgid"), ("gid_t", "egid")]),
  ("setregid16", "long", [("old_gid_t", "rgid"), ("old_gid_t", "egid")]),
  ("setresgid", "long", [("gid_t", "rgid"), ("gid_t", "egid"), ("gid_t", "sgid")]),
  ("setresgid16", "long", [("old_gid_t", "rgid"), ("old_gid_t", "egid"), ("old_gid_t", "sgid")]),
  ("setresuid", "long", [("uid_t", "ruid"), ("uid_t", "euid"), ("uid_t", "suid")]),
  ("setresuid16", "long", [("old_uid_t", "ruid"), ("old_uid_t", "euid"), ("old_uid_t", "suid")]),
  ("setreuid", "long", [("uid_t", "ruid"), ("uid_t", "euid")]),
  ("setreuid16", "long", [("old_uid_t", "ruid"), ("old_uid_t", "euid")]),
  ("setrlimit", "long", [("unsigned int", "resource"), ("struct rlimit *", "rlim")]),
  ("setsid", "long", []),
  ("setsockopt", "long", [("int", "fd"), ("int", "level"), ("int", "optname"), ("char *", "optval"), ("int", "optlen")]),
  ("settimeofday", "long", [("struct timeval *", "tv"), ("struct timezone *", "tz")]),
  ("setuid", "long", [("uid_t", "uid")]),
  ("setuid16", "long", [("old_uid_t", "uid")]),
  ("setxattr", "long", [("const char *", "path"), ("const char *", "name"), ("const void *", "value"), ("size_t", "size"), ("int", "flags")]),
  ("sgetmask", "long", []),
  ("shmat", "long", [("int", "shmid"), ("char *", "shmaddr"), ("int", "shmflg")]),
  ("shmctl", "long", [("int", "shmid"), ("int", "cmd"), ("struct shmid_ds *", "buf")]),
  ("shmdt", "long", [("char *", "shmaddr")]),
  ("shmget", "long", [("key_t", "key"), ("size_t", "size"), ("int", "flag")]),
  ("shutdown", "long", [("int", "sockfd"), ("int", "how")]),
  ("sigaction", "long", [("int", "signum"), ("const struct old_sigaction *", "act"), ("struct old_sigaction *", "oldact")]),
  ("sigaltstack", "long", [("const struct sigaltstack *", "uss"), ("struct sigaltstack *", "uoss")]),
  ("signal", "long", [("int", "sig"), ("__sighandler_t", "handler")]),
  ("signalfd", "long", [("int", "ufd"), ("sigset_t *", "user_mask"), ("size_t", "sizemask")]),
  ("signalfd4", "long", [("int", "ufd"), ("sigset_t *", "user_mask"), ("size_t", "sizemask"), ("int", "flags")]),
  ("sigpending", "long", [("old_sigset_t *", "set")]),
  ("sigprocmask", "long", [("int", "how"), ("old_sigset_t *", "set"), ("old_sigset_t *", "oset")]),
  ("sigsuspend", "long", [("int", "unused1"), ("int", "unused2"), ("old_sigset_t", "mask")]),
  ("socket", "long", [("int", "domain"), ("int", "type"), ("int", "protocol")]),
  ("socketcall", "long", [("int", "call"), ("unsigned long *", "args")]),
  ("socketpair", "long", [("int", "domain"), ("int", "type"), ("int", "protocol"), ("int *", "sv")]),
  ("splice", "long", [("int", "fd_in"), ("loff_t *", "off_in"), ("int", "fd_out"), ("loff_t *", "off_out"), ("size_t", "len"), ("unsigned int", "flags")]),
  ("spu_create", "long", [("const char *", "name"), ("unsigned int", "flags"), ("umode_t", "mode"), ("int", "fd")]),
  ("spu_run", "long", [("int", "fd"), ("__u32 *", "unpc"), ("__u32 *", "ustatus")]),
  ("ssetmask", "long", [("int", "newmask")]),
  ("stat", "long", [("const char *", "filename"), ("struct __old_kernel_stat *", "statbuf")]),
  ("stat64", "long", [("const char *", "filename"), ("struct stat64 *", "statbuf")]),
  ("statfs", "long", [("const char *", "path"), ("struct statfs *", "buf")]),
  ("statfs64", "long", [("const char *", "path"), ("size_t", "sz"), ("struct statfs64 *", "buf")]),
  ("statx", "long", [("int", "dirfd"), ("const char *", "pathname"), ("int", "flags"), ("unsigned int", "mask"), ("struct statx *", "statxbuf")]),
  ("stime", "long", [("time_t *", "tptr")]),
  ("swapoff", "long", [("const char *", "specialfile")]),
  ("swapon", "long", [("const char *", "specialfile"), ("int", "swap_flags")]),
  ("symlink", "long", [("const char *", "old"), ("const char *", "new")]),
  ("symlinkat", "long", [("const char *", "oldname"), ("int", "newdfd"), ("const char *", "newname")]),
  ("sync", "long", []),
  ("sync_file_range", "long", [("int", "fd"), ("loff_t", "offset"), ("loff_t", "nbytes"), ("unsigned int", "flags")]),
  ("sync_file_range2", "long", [("int", "fd"), ("unsigned int", "flags"), ("loff_t", "offset"), ("loff_t", "nbytes")]),
  ("syncfs", "long", [("int", "fd")]),
  ("sysctl", "long", [("struct __sysctl_args *", "args")]),
  ("sysfs", "long", [("int", "option"), ("unsigned long", "arg1"), ("unsigned long", "arg2")]),
  ("sysinfo", "long", [("struct sysinfo *", "info")]),
  ("syslog", "long", [("int", "type"), ("char *", "buf"), ("int", "len")]),
  ("tee", "long", [("int", "fdin"), ("int", "fdout"), ("size_t", "len"), ("unsigned int", "flags")]),
  ("tgkill", "long", [("int", "tgid"), ("int", "pid"), ("int", "sig")]),
  ("time", "long", [("time_t *", "tloc")]),
  ("timer_create", "long", [("clockid_t", "which_clock"), ("struct sigevent *", "timer_event_spec"), ("timer_t *", "created_timer_id")]),
  ("timer_delete", "long", [("timer_t", "timer_id")]),
  ("timer_getoverrun", "long", [("timer_t", "timer_id")]),
  ("timer_gettime", "long", [("timer_t", "timer_id"), ("struct itimerspec *", "setting")]),
  ("timer_settime", "long", [("timer_t", "timer_id"), ("int", "flags"), ("const struct itimerspec *", "new_setting"), ("struct itimerspec *", "old_setting")]),
  ("timerfd_create", "long", [("int", "clockid"), ("int", "flags")]),
  ("timerfd_gettime", "long", [("int", "ufd"), ("struct itimerspec *", "otmr")]),
  ("timerfd_settime", "long", [("int", "ufd"), ("int", "flags"), ("const struct itimerspec *", "utmr"), ("struct itimerspec *", "otmr")]),
  ("times", "long", [("struct tms *", "tbuf")]),
  ("tkill", "long", [("int", "pid"), ("int", "sig")]),
  ("truncate", "long", [("const char *", "path"), ("long", "length")]),
  ("truncate64", "long", [("const char *", "path"), ("loff_t", "length")]),
  ("umask", "long", [("int", "mask")]),
  ("umount", "long", [("char *", "name"), ("int", "flags")]),
  ("uname", "long", [("struct old_utsname *", "buf")]),
  ("unlink", "long", [("const char *", "pathname")]),
  ("unlinkat", "long", [("int", "dfd"), ("const char *", "pathname"), ("int", "flag")]),
  ("unshare", "long", [("unsigned long", "unshare_flags")]),
  ("uselib", "long", [("const char *", "library")]),
  ("userfaultfd", "long", [("int", "flags")]),
  ("ustat", "long", [("unsigned", "dev"), ("struct ustat *", "ubuf")]),
  ("utime", "long", [("char *", "filename"), ("struct utimbuf *", "times")]),
  ("utimensat", "long", [("int", "dfd"), ("const char *", "filename"), ("struct timespec *", "utimes"), ("int", "flags")]),
  ("utimes", "long", [("char *", "filename"), ("struct timeval *", "utimes")]),
  ("vfork", "long", []),
  ("vhangup", "long", []),
  ("vmsplice", "long", [("int", "fd"), ("const struct iovec *", "iov"), ("unsigned long", "nr_segs"), ("unsigned int", "flags")]),
  ("wait4", "long", [("pid_t", "pid"), ("int *", "stat_addr"), ("int", "options"), ("struct rusage *", "ru")]),
  ("waitid", "long", [("int", "which"), ("pid_t", "pid"), ("struct siginfo *", "infop"), ("int", "options"), ("struct rusage *", "ru")]),
  ("waitpid", "long", [("pid_t", "pid"), ("int *", "stat_addr"), ("int", "options")]),
  ("write", "long", [("unsigned int", "fd"), ("const char *", "buf"), ("size_t", "count")]),
  ("writev", "long", [("unsigned long", "fd"), ("const struct iovec *", "vec"), ("unsigned long", "vlen")])]

/-- `ALIASES` of `prototypes.py:7-17`. -/
def aliases : List (String × List String) := [
  ("brk", ["break"]),
  ("fadvise64", ["posix_fadvise"]),
  ("fstatat64", ["fstatat"]),
  ("getcwd", ["__getcwd"]),
  ("mmap_pgoff", ["mmap", "mmap2"]),
  ("pread64", ["pread"]),
  ("prlimit64", ["prlimit"]),
  ("pselect6", ["pselect"]),
  ("pwrite64", ["pwrite"])]

/-- `FILENAME_ARGUMENTS` of `prototypes.py:20-21`. -/
def filenameArguments : List String := ["filename", "pathname", "path", "oldname", "newname", "old", "new"]

/-- `SOCKETCALL` of `socketcall_constants.py`. -/
def socketcall : List (Nat × String) := [
  (1, "socket"), (2, "bind"), (3, "connect"), (4, "listen"), (5, "accept"), (6, "getsockname"), (7, "getpeername"),
  (8, "socketpair"), (9, "send"), (10, "recv"), (11, "sendto"), (12, "recvfrom"), (13, "shutdown"), (14, "setsockopt"),
  (15, "getsockopt"), (16, "sendmsg"), (17, "recvmsg")]

end PT.Tables
